import Verif.Props.Pending
import Verif.Props.ConsoleTools
import Verif.Props.Close

/-! C129, C134 and C148: what single cases showed, for all inputs. -/

namespace Healer
open Brokers

theorem genAssignmentsLoop_then (rest : List Bytes) : ∀ (a acc : List (List Int32)), (∀ ns ∈ a, ns ≠ []) →
    genAssignmentsLoop acc.length (a.map showNodes ++ rest) acc = genAssignmentsLoop (acc.length + a.length) rest (acc ++ a)
  | [], acc, _ => by simp
  | ns :: a, acc, h => by
    have hn := h ns (by simp)
    simp only [List.map_cons, List.cons_append, genAssignmentsLoop, showNodes_ne_nil ns hn, if_false, parseNodes_show ns hn, Nat.le_refl, if_true]
    rw [modify_last]
    have := genAssignmentsLoop_then rest a (acc ++ [ns]) fun x hx => h x (by simp [hx])
    simp only [List.length_append, List.length_singleton, List.append_assoc, List.singleton_append] at this ⊢
    rw [this]
    simp only [List.length_cons, Nat.add_comm 1, Nat.add_assoc]

/-- C129 does not hold for any assignment in which a partition before the last is left empty: create-partitions crashes. -/
theorem C129_violated_every_empty (a : List (List Int32)) (ns : List Int32) (c : List (List Int32)) (ha : ∀ x ∈ a, x ≠ []) (hn : ns ≠ []) :
    genPartitionAssignments (showAssignment (a ++ [] :: ns :: c)) = .panic := by
  unfold genPartitionAssignments showAssignment
  rw [splitAt_join 44 _ (by simp)]
  · rw [List.map_append]
    have := genAssignmentsLoop_then (([] :: ns :: c).map showNodes) a [] ha
    simp only [List.length_nil, Nat.zero_add, List.nil_append] at this
    rw [this]
    have h0 : showNodes [] = [] := rfl
    simp only [List.map_cons, h0, genAssignmentsLoop, if_true, showNodes_ne_nil ns hn, if_false, parseNodes_show ns hn]
    rw [if_neg (by omega)]
  · intro w hw hs
    obtain ⟨ns, hns, rfl⟩ := List.mem_map.1 hw
    exact showNodes_no_comma ns hs

example : showAssignment [[1], [], [2]] = [49, 44, 44, 50] := by decide +kernel

/-- C129 does not hold for any node id from 2^31 on: another node is asked for, without an error. -/
theorem C129_violated_every_wrap (n : Int) (h0 : 2 ^ 31 ≤ n) (h1 : n < 2 ^ 63) :
    ∃ m : Int32, genPartitionAssignments (itoa n) = .ok [[m]] ∧ m.toInt ≠ n := by
  have hd : ∀ x ∈ itoa n, x ≠ 44 ∧ x ≠ 58 := by
    intro x hx
    rw [itoa_nat _ (by omega)] at hx
    have := mem_decimal _ x hx
    constructor <;> (rintro rfl; simp at this)
  have one : ∀ sep : UInt8, sep ∉ itoa n → splitAt sep (itoa n) = [itoa n] := by
    intro sep hs
    have := splitAt_join sep [itoa n] (by simp) (by simpa using hs)
    simpa using this
  have hp : parseNodes (itoa n) = some [(Int64.ofInt n).toInt32] := by
    unfold parseNodes
    rw [one 58 fun h => (hd _ h).2 rfl]
    simp [atoi_itoa n ⟨by omega, h1⟩]
  have hne : itoa n ≠ [] := by
    intro h
    have := atoi_itoa n ⟨by omega, h1⟩
    rw [h] at this
    simp [atoi, signedOf, digitsOf] at this
  refine ⟨(Int64.ofInt n).toInt32, ?_, ?_⟩
  · unfold genPartitionAssignments
    rw [one 44 fun h => (hd _ h).1 rfl]
    simp [genAssignmentsLoop, hne, hp]
  · have := (Int64.ofInt n).toInt32.toInt_lt
    omega

/-- C134 fails for every broker object: a request made after `Close` opens a new connection, which nothing closes. -/
theorem C134_violated_every_reopened (timed : Bool) (s : Shared) (hi : s.req = .idle) (c d : Nat) (hc : s.conn = some c) (hd : d ≠ c) (hnew : d ∉ s.closed) :
    ∃ s', Shared.run timed [.close, .begin (some d)] s = some s' ∧ s'.conn = some d ∧ s'.opened = s.opened ++ [d] ∧ c ∈ s'.closed ∧ d ∉ s'.closed := by
  obtain ⟨conn, req, o, cl⟩ := s
  simp only at hi hc
  subst hi hc
  exact ⟨_, rfl, rfl, rfl, by simp [Shared.shut], by simpa [Shared.shut, hd] using hnew⟩

/-- C148 does not hold for any cluster and any error: if the metadata cannot be had, get-pending without `--group` ends with success, having shown
nothing, just as if there were no groups. -/
theorem C148_violated_every_silent {W : Type} (net : Net W) (lib : RegexpLib) (describe : Nat → Bytes → W → Out DescribeGroupsResponse × W)
    (fetch : Nat → OffsetFetchRequest → W → Except Err OffsetFetchResponse × W) (topic : Bytes) (b b' : Brokers W) (r : MetadataResponse) (e : Err)
    (h : requestMetaData net [] b = ((r, some e), b')) : getPendingCmd net lib describe fetch [] topic b = (.ok [], b') := by
  simp [getPendingCmd, getGroups, helperGroups, h, andThen, pendingGroups]

example : ∃ r e b', requestMetaData deadNet [] (demoBrokers deadNet) = ((r, some e), b') := ⟨_, _, _, rfl⟩

end Healer
