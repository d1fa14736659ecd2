import Verif.Props.Tools2
import Verif.Props.ConsoleTools

/-! C128 and C153: the failures of reset-offset and of the printed lines, for all inputs. -/

namespace Healer
open Brokers

variable {W : Type}

/-- C128 does not hold for any timestamp after the last message of a chosen partition: Kafka answers such a timestamp with -1,
and whenever the tool reports success it has committed the position -1, where no message can be. -/
theorem C128_violated_every_late (net : Net W) (commit : Commit → W → Option Err × W) (flags : AMap Bytes Bytes) (group topic : Bytes) (chosen ps : List Int32)
    (off : Int32 → Int64) (ho : Orderly net topic ps off) (p : Int32) (hp : p ∈ ps) (hc : chosen = [] ∨ p ∈ chosen) (hlate : off p = -1) (b b' : Brokers W)
    (sent : List Commit) (h : resetOffset net commit flags group topic chosen b = (.ok sent, b')) :
    ∃ k version req, sent = [(k, version, req)] ∧ ∃ x ∈ req.topics, x.topic = topic ∧ ⟨p, -1, []⟩ ∈ x.partitions := by
  obtain ⟨n, k, version, req, h1, -, -, -, -, -, -, -, -, -, h2⟩ := C128_partial net commit flags group topic chosen ps off ho b b' sent h
  exact ⟨k, version, req, h1, (h2 topic p (-1) []).2 ⟨rfl, hp, hc, hlate.symm, rfl⟩⟩

/-- a cluster that has no message as late as asked for meets the hypothesis; `C128_violated_late` is a run on it -/
example : Orderly lateNet [116] [0, 1, 2] fun _ => -1 := by
  refine ⟨by decide, ?_, ?_⟩
  · intro h w r hr
    simp only [lateNet, goodNet, demoNet, Prod.mk.injEq, and_true] at hr
    subst hr
    exact ⟨_, rfl, by decide⟩
  · intro h pids w r hr
    simp only [lateNet, Prod.mk.injEq, and_true] at hr
    subst hr
    simp [PartitionOffset.getOffset, Function.comp_def]

/-- C128 does not hold for any choice of partitions the topic does not have: where the tool succeeds for all partitions, it
also reports success for these, and the commit it has sent has no entries. -/
theorem C128_violated_every_unknown (net : Net W) (commit : Commit → W → Option Err × W) (hacc : ∀ c w, (commit c w).1 = none) (flags : AMap Bytes Bytes)
    (group topic : Bytes) (chosen ps : List Int32) (off : Int32 → Int64) (ho : Orderly net topic ps off) (hne : chosen ≠ []) (hno : ∀ p ∈ chosen, p ∉ ps)
    (b b' : Brokers W) (all : List Commit) (h : resetOffset net commit flags group topic [] b = (.ok all, b')) :
    ∃ k version req b'', resetOffset net commit flags group topic chosen b = (.ok [(k, version, req)], b'') ∧ ∀ x ∈ req.topics, x.partitions = [] := by
  have hok : ∃ sent b'', resetOffset net commit flags group topic chosen b = (.ok sent, b'') := by
    unfold resetOffset at h ⊢
    rcases hm : requestMetaData net [topic] b with ⟨⟨r, _ | e⟩, b1⟩ <;> rw [hm] at h
    · simp only at h ⊢
      cases hr : r.error with
      | some e => rw [hr] at h; simp at h
      | none =>
        rw [hr] at h
        obtain ⟨offsets, b2, h2, h⟩ := andThen_ok h
        obtain ⟨k, b3, h3, h⟩ := andThen_ok h
        change ∃ sent b'', andThen (resetOffsets net topic b1) _ = (Out.ok sent, b'')
        simp only [h2, h3, andThen, resetCommit]
        rcases order net offsets b3 with ⟨l, b4⟩
        rcases hx : commit (k, resetVersion flags, resetRequest group topic chosen l) b4.world with ⟨_ | e, w⟩
        · exact ⟨_, _, rfl⟩
        · have := hacc (k, resetVersion flags, resetRequest group topic chosen l) b4.world
          rw [hx] at this
          cases this
    · simp at h
  obtain ⟨sent, b'', hs⟩ := hok
  obtain ⟨n, k, version, req, h1, -, -, -, -, -, -, -, -, -, h2⟩ := C128_partial net commit flags group topic chosen ps off ho b b'' sent hs
  refine ⟨k, version, req, b'', h1 ▸ hs, fun x hx => ?_⟩
  cases hxp : x.partitions with
  | nil => rfl
  | cons e es =>
    obtain ⟨-, hp, hc, -, -⟩ := (h2 x.topic e.partitionID e.offset e.metadata).1 ⟨x, hx, rfl, by rw [hxp]; exact .head _⟩
    exact absurd hp (hno _ (hc.resolve_left hne))

example : (∀ c w, (acceptAll c w).1 = none) ∧ (∃ all, okPart (resetOffset tallyNet acceptAll [] [103] [116] [] (demoBrokers tallyNet)) = some all) ∧
    ∀ p ∈ [(7 : Int32), 8], p ∉ [(0 : Int32), 1, 2] := ⟨fun _ _ => rfl, ⟨_, by rfl⟩, by decide⟩

/-- C153 does not hold for any two messages: there is a third, of the same topic, partition and offset as the first, which alone
is printed by `group-consumer` exactly as those two. -/
theorem C153_violated_every_feed (a b : FullMessage) (ha : a.OneLine) (hb : b.OneLine) :
    ∃ m : FullMessage, m.topicName = a.topicName ∧ m.partitionID = a.partitionID ∧ m.message.map Message.offset = a.message.map Message.offset ∧
      printed groupLine [m] = printed groupLine [a, b] := by
  obtain ⟨xa, x, hx, h1, -, h2⟩ := groupLine_split a ha
  obtain ⟨xb, y, hy, h3, -, -⟩ := groupLine_split b hb
  refine ⟨{ a with message := some { x with value := some (x.value.getD [] ++ 10 :: xb) } }, rfl, rfl, by simp [hx], ?_⟩
  have hm : groupLine { a with message := some { x with value := some (x.value.getD [] ++ 10 :: xb) } } = some (xa ++ 10 :: xb ++ [10]) := by
    simp [groupLine, h2]
  simp [printed, hm, h1, h3]

example : FullMessage.OneLine ⟨[116], 0, none, some { offset := 5, value := some [120] }⟩ := ⟨by decide, by decide, _, rfl, by decide⟩

end Healer
