import Verif.Props.Request

/-!
# C58: a filter set to nil
-/

namespace Healer

theorem uvarint_first (n : Nat) (h : 0 < n) (t u : Bytes) : Kafka.uvarint n ++ t ≠ 0 :: u := by
  unfold Kafka.uvarint
  intro h'
  cases hq : n.log2 / 7 with
  | zero =>
    rw [hq] at h'
    have hn : n < 128 := by
      have : n.log2 < 7 := by omega
      exact (Nat.log2_lt (by omega)).1 this
    simp only [List.range_zero, List.map_nil, List.nil_append, List.cons_append, List.cons.injEq, Nat.pow_zero, Nat.div_one] at h'
    have := congrArg UInt8.toNat h'.1
    rw [UInt8.toNat_ofNat_of_lt' (by show n < 256; omega)] at this
    exact absurd this (by show n ≠ 0; omega)
  | succ k =>
    rw [hq, List.range_succ_eq_map] at h'
    simp only [List.map_cons, List.cons_append, List.cons.injEq, Nat.pow_zero, Nat.div_one] at h'
    have := congrArg UInt8.toNat h'.1
    rw [UInt8.toNat_ofNat_of_lt' (by show _ < 256; omega)] at this
    exact absurd this (by show _ ≠ 0; omega)

theorem writes_nilFilter : Writes (encodeFilter true none) [0] :=
  (Writes.seq (Writes.cpyO (o := encodeCompactArrayLength (-1)) (bs := [0]) (by decide)) (Writes.each (g := fun _ => []) _ (by simp))).cast rfl

/-- **C58 is violated by every list-groups request** of versions 4 and 5 whose filter of states was set to nil, Go's empty slice: the request has the mark for "null" where Kafka wants a list, whatever
the list of types is, and is no list-groups request with whatever filters. -/
theorem C58_violated_every_nil_filter (types : List Bytes) (v : UInt16) (hv : v = 4 ∨ v = 5) (ht : ∀ x ∈ types, x.length < 16383) (hnt : types.length + 1 < 2 ^ 28)
    (corr : UInt32) (cid : Option Bytes) :
    ∃ body, ListGroupsRequest.encode (reqHeader API_ListGroups v corr cid) { statesFilter := none, typesFilter := some types } =
      .ok (Kafka.request .listGroups v.toNat corr.toNat cid body) ∧ ∀ states types', body ≠ Kafka.listGroupsRequest v.toNat states types' := by
  refine ⟨0 :: ((if v = 5 then Kafka.compactArray Kafka.compactString types else []) ++ [0]), ?_, fun states types' h => ?_⟩
  · refine encodePatched_ok .listGroups rfl (Writes.withO (reqHeader_flexible .listGroups _ v corr cid rfl) ?_) ?_
    · have tag : Writes (TaggedFields.encodeTo none) (Kafka.tagBuffer []) := by
        refine (Writes.seq (Writes.put _) (Writes.each (g := fun _ => []) _ (by simp))).cast ?_
        rw [putUvarint_eq]; simp [Kafka.tagBuffer]
      have wT := writes_filter types (fun x hx => by have := ht x hx; omega) (by omega)
      have t1 : Kafka.tagBuffer [] = [0] := by decide
      rw [t1] at tag
      rcases hv with rfl | rfl
      · exact (Writes.all_cons writes_nilFilter (Writes.all_cons Writes.nop (Writes.all_cons tag Writes.all_nil))).cast (by simp)
      · exact (Writes.all_cons writes_nilFilter (Writes.all_cons wT (Writes.all_cons tag Writes.all_nil))).cast (by simp)
    · have l2 := compactStrings_length types (4 + 4) ht
      have u2 := uvarint_length_le 3 (types.length + 1) (by omega)
      unfold ListGroupsRequest.length
      simp only [Option.getD_none, Option.getD_some, List.foldl_nil, TaggedFields.length, List.length_cons, List.length_append, List.length_nil]
      split <;> simp only [Kafka.compactArray, List.length_append, List.length_nil] <;> omega
  · have : Kafka.listGroupsRequest v.toNat states types' = Kafka.uvarint (states.length + 1) ++ (states.flatMap Kafka.compactString ++
        ((if 5 ≤ v.toNat then Kafka.compactArray Kafka.compactString types' else []) ++ (if 3 ≤ v.toNat then Kafka.tagBuffer [] else []))) := by
      unfold Kafka.listGroupsRequest
      rw [if_pos (by rcases hv with rfl | rfl <;> decide)]
      simp only [Kafka.compactArray, List.append_assoc]
    exact uvarint_first _ (by omega) _ _ (this ▸ h).symm

example : ListGroupsRequest.encode (reqHeader API_ListGroups 4 7 (some [99])) { statesFilter := none, typesFilter := some [] } =
    .ok (Kafka.request .listGroups 4 7 (some [99]) [0, 0]) := by decide +kernel
end Healer
