import Verif.Props.Restart

/-!
# C141: what is lost with a buffered channel
-/

namespace Healer

/-- A message as the decoder hands it over. -/
def plainFull (m : Message) : FullMessage := ⟨[], 0, none, some m⟩

/-- The position after the last message, `o` if there is none. -/
def positionAfter (o : Int64) (ms : List Message) : Int64 := ms.foldl (fun _ m => m.offset + 1) o

/-- a run in two parts -/
theorem SC.run_append (env : ConsumerEnv) : ∀ (as bs : List ConsumerAct) (s : SC), SC.run env (as ++ bs) s = (SC.run env as s).bind (SC.run env bs)
  | [], bs, s => rfl
  | a :: as, bs, s => by
    show (s.step env a).bind (SC.run env (as ++ bs)) = ((s.step env a).bind (SC.run env as)).bind (SC.run env bs)
    cases s.step env a with
    | none => rfl
    | some t => exact SC.run_append env as bs t

/-- Messages are put into the channel one after the other, as long as there is room. -/
theorem run_taking (env : ConsumerEnv) (ms : List Message) (s : SC) (hl : s.loop = .inner (ms.map plainFull)) (hc : env.capacity ≠ 0)
    (hr : s.queue.length + ms.length ≤ env.capacity) :
    s.run env (ms.flatMap fun _ => take') = some { s with loop := .inner [], offset := positionAfter s.offset ms, queue := s.queue ++ ms, log := s.log ++ ms.map Seen.put } := by
  induction ms generalizing s with
  | nil =>
    show some s = _
    rw [show (LoopAt.inner []) = s.loop from hl.symm]
    simp [positionAfter]
  | cons m ms ih =>
    rw [List.length_cons] at hr
    have h1 : s.step env (.next (.error .eof)) = some { s with loop := .sent m (ms.map plainFull), queue := s.queue ++ [m], log := s.log ++ [.put m] } := by
      show nextMessage env _ s = _
      unfold nextMessage putSeen
      rw [hl]
      simp only [List.map_cons, plainFull]
      rw [if_neg hc, if_pos (by omega), if_neg hc]
    show (s.step env (.next (.error .eof))).bind (fun t => (t.step env .advance).bind (SC.run env (ms.flatMap fun _ => take'))) = _
    rw [h1, Option.bind_some]
    show SC.run env (ms.flatMap fun _ => take') { s with loop := .inner (ms.map plainFull), offset := m.offset + 1, queue := s.queue ++ [m], log := s.log ++ [.put m] } = _
    rw [ih { s with loop := .inner (ms.map plainFull), offset := m.offset + 1, queue := s.queue ++ [m], log := s.log ++ [.put m] } rfl (by
      show (s.queue ++ [m]).length + _ ≤ _
      rw [List.length_append, List.length_singleton]; omega)]
    simp only [List.append_assoc, List.singleton_append, List.map_cons]
    rfl

theorem fed_none (feed : Int64 → List FullMessage → Prop) (env : ConsumerEnv) (as : List ConsumerAct) (h : ∀ ms, ConsumerAct.fetched ms ∉ as) (s : SC) : Fed feed env as s := by
  induction as generalizing s with
  | nil => trivial
  | cons a as ih =>
    exact ⟨fun ms e => absurd (by rw [← e]; simp) (h ms), fun s1 _ => ih (fun ms hm => h ms (by simp [hm])) s1⟩

theorem fromLog_plain (rest : List Kafka.Stored) (ms : List Message) : FromLog (ms.map Message.seen ++ rest) (ms.map plainFull) := by
  induction ms with
  | nil => trivial
  | cons m ms ih =>
    intro _ x hx
    cases hx
    exact ⟨_, rfl, ih⟩

/-- **C141 is violated for all messages and every buffered channel.** Take any messages `ms` and `m` that are next in the log from any position on, no more than the channel has places for: a
consumer can put them into the channel, commit the position after them, and end before the user has received any of them; the next one starts after them. -/
theorem C141_violated_every_buffered (L : List Kafka.Stored) (capacity : Nat) (start : Int64) (h0 : 0 ≤ start.toInt) (ms : List Message) (m : Message) (rest : List Kafka.Stored)
    (hL : fromOffset L start.toInt = (ms ++ [m]).map Message.seen ++ rest) (hm : 0 ≤ m.offset.toInt ∧ m.offset.toInt + 1 < 2 ^ 63) (hc : ms.length < capacity)
    (fetchMaxBytes : Int32) :
    ∃ second first : Life, Lives start [second, first] ∧ (∀ l ∈ [second, first], l.Ran L ∧ l.env.capacity = capacity) ∧
      (∃ mem g ok, Seen.commit mem g (m.offset + 1) ok ∈ first.final.log) ∧ (∀ x ∈ ms ++ [m], Seen.put x ∈ first.final.log) ∧
      (∀ l ∈ [second, first], ∀ q, Seen.got q ∉ l.final.log) ∧ second.start.offset = m.offset + 1 := by
  have hs1 : (m.offset + 1).toInt = m.offset.toInt + 1 := by
    rw [Int64.toInt_add, show (1 : Int64).toInt = 1 from rfl, Int.bmod_eq_of_le] <;> omega
  have hne (o : Int64) (ho : 0 ≤ o.toInt) : o ≠ -1 ∧ o ≠ -2 := by
    constructor <;> (rintro rfl; revert ho; decide)
  have hn0 : m.offset + 1 ≠ 0 := by
    intro e
    rw [e] at hs1
    have : (0 : Int64).toInt = 0 := rfl
    omega
  have hstart : consumeStart .own start (-1) [] fetchMaxBytes = { offset := start, fetchMaxBytes := fetchMaxBytes } := by
    unfold consumeStart
    simp only
    have hf' : ¬ (start = -1 ∨ start = -2) := fun h => h.elim (hne start h0).1 (hne start h0).2
    simp [hf']
  have hnext : consumeStart .own (-1) (m.offset + 1) [] fetchMaxBytes = { offset := m.offset + 1, fetchMaxBytes := fetchMaxBytes } := by
    unfold consumeStart
    simp only
    have hg : (0 : Int64) ≤ m.offset + 1 := by rw [Int64.le_iff_toInt_le, hs1]; show (0 : Int) ≤ _; omega
    have hf' := hne (m.offset + 1) (by omega)
    simp [hg, hf'.1, hf'.2]
  have hpos : positionAfter start (ms ++ [m]) = m.offset + 1 := by unfold positionAfter; rw [List.foldl_append]; rfl
  have hrun : (consumeStart .own start (-1) [] fetchMaxBytes).run { mode := .own, capacity }
      (.fetched ((ms ++ [m]).map plainFull) :: (((ms ++ [m]).flatMap fun _ => take') ++ ownCommit true))
      = some { offset := m.offset + 1, fetchMaxBytes, loop := .inner [], queue := ms ++ [m], commits := [.acknowledged (m.offset + 1)],
               log := .fetch start fetchMaxBytes :: (ms ++ [m]).map Seen.put ++ [.commit [] (-1) (m.offset + 1) true] } := by
    rw [hstart]
    show SC.run { mode := .own, capacity } (((ms ++ [m]).flatMap fun _ => take') ++ ownCommit true)
      { offset := start, fetchMaxBytes, loop := .inner ((ms ++ [m]).map plainFull), log := [.fetch start fetchMaxBytes] } = _
    rw [SC.run_append, run_taking { mode := .own, capacity } (ms ++ [m]) { offset := start, fetchMaxBytes, loop := .inner ((ms ++ [m]).map plainFull), log := [.fetch start fetchMaxBytes] }
      rfl (by show capacity ≠ 0; omega) (by rw [List.length_append]; show 0 + (ms.length + 1) ≤ capacity; omega), Option.bind_some]
    simp only [hpos]
    simp [ownCommit, SC.run, SC.step, commitNext, setCommit, hn0]
  refine ⟨⟨{ mode := .own, capacity }, -1, m.offset + 1, [], fetchMaxBytes, [], { offset := m.offset + 1, fetchMaxBytes }⟩,
    ⟨{ mode := .own, capacity }, start, -1, [], fetchMaxBytes,
     .fetched ((ms ++ [m]).map plainFull) :: (((ms ++ [m]).flatMap fun _ => take') ++ ownCommit true),
     { offset := m.offset + 1, fetchMaxBytes, loop := .inner [], queue := ms ++ [m], commits := [.acknowledged (m.offset + 1)],
       log := .fetch start fetchMaxBytes :: (ms ++ [m]).map Seen.put ++ [.commit [] (-1) (m.offset + 1) true] }⟩, ?_, ?_, ⟨[], -1, true, ?_⟩, ?_, ?_, ?_⟩
  · refine ⟨.inr ⟨_, List.mem_singleton.mpr rfl, (by show CommitMode.own ≠ CommitMode.none; decide), .inl rfl, by show 0 ≤ (m.offset + 1).toInt; omega, [], -1, true, by simp⟩, .inl ?_, trivial⟩
    show (consumeStart .own start (-1) [] fetchMaxBytes).offset = _
    rw [hstart]
  · intro l hl
    rcases List.mem_pair.mp hl with rfl | rfl
    · refine ⟨⟨?_, trivial, fun _ _ h => by cases h⟩, rfl⟩
      show some (consumeStart .own (-1) (m.offset + 1) [] fetchMaxBytes) = _
      rw [hnext]
    · refine ⟨⟨hrun, ⟨fun x hx => ?_, fun s1 _ => fed_none _ _ _ ?_ _⟩, ?_⟩, rfl⟩
      · cases hx
        show FromLog (fromOffset L (consumeStart .own start (-1) [] fetchMaxBytes).offset.toInt) _
        rw [hstart, hL]
        exact fromLog_plain rest _
      · intro x hx
        simp [take', ownCommit] at hx
      · intro b a h
        simp at h
  · simp
  · intro x hx
    simp only [List.mem_append, List.mem_cons, List.mem_map]
    exact .inl (.inr ⟨x, by simpa using hx, rfl⟩)
  · intro l hl q
    rcases List.mem_pair.mp hl with rfl | rfl
    · simp
    · simp
  · show (consumeStart .own (-1) (m.offset + 1) [] fetchMaxBytes).offset = _
    rw [hnext]

/-- two messages in a channel of 100 -/
example : fromOffset threeStored (5 : Int64).toInt = ([{ offset := 5 }] ++ [{ offset := 7 }] : List Message).map Message.seen ++ threeStored.drop 2 := by decide

end Healer
