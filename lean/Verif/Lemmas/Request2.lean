import Verif.Model.Request2
import Verif.Lemmas.Request

/-! # Helper lemmas about request encoders, part 2 -/

namespace Healer

theorem noTags_encode : TaggedFields.encode none = .ok (Kafka.tagBuffer []) := by
  simp [TaggedFields.encode, Kafka.tagBuffer, uvarint_zero]

theorem Writes.noTags : Writes Enc.noTags (Kafka.tagBuffer []) := Writes.cpyO noTags_encode

@[simp] theorem tagBuffer_nil_length : (Kafka.tagBuffer []).length = 1 := by decide

theorem Writes.carr {α β : Type} {f : α → Enc} {g : β → Bytes} {k : α → β} (xs : List α) (hn : xs.length < 2 ^ 63)
    (h : ∀ x ∈ xs, Writes (f x) (g (k x))) : Writes (Enc.carr f xs) (Kafka.compactArray g (xs.map k)) := by
  refine (Writes.seq (Writes.put _) (Writes.each (g := fun x => g (k x)) xs h)).cast ?_
  rw [putUvarint_eq, lenPlus1_eq _ hn, Kafka.compactArray, List.length_map, List.flatMap_map]

theorem Writes.carr' {α β : Type} {f : α → Enc} {g : β → Bytes} {k : α → β} (xs : List α) (hn : xs.length < 2 ^ 63)
    (h : ∀ x ∈ xs, Writes (f x) (g (k x))) : Writes (Enc.carr' f xs) (Kafka.compactArray g (xs.map k)) := by
  refine (Writes.seq (Writes.cpyO (encodeCompactArrayLength_eq xs.length hn _ (Int64.toInt_ofNat_of_lt hn)))
    (Writes.each (g := fun x => g (k x)) xs h)).cast ?_
  rw [Kafka.compactArray, List.length_map, List.flatMap_map]

theorem Writes.u8 (b : UInt8) : Writes (Enc.put [b]) (Kafka.int8 b.toNat) := by
  refine (Writes.put _).cast ?_
  have : (b.toNat : Int) % 256 = b.toNat := by have := b.toNat_lt; omega
  simp [Kafka.int8, Kafka.be, this]

theorem compactArray_length {α : Type} (g : α → Bytes) (xs : List α) :
    (Kafka.compactArray g xs).length = (Kafka.uvarint (xs.length + 1)).length + (xs.flatMap g).length := by
  simp [Kafka.compactArray]


theorem compactString_length (s : Bytes) :
    (Kafka.compactString s).length = (Kafka.uvarint (s.length + 1)).length + s.length := by simp [Kafka.compactString]

/-- Computed bounds dominate the lengths written. -/
theorem foldl_ge {α β : Type} {f : Nat → α → Nat} {g : β → Bytes} {k : α → β} (xs : List α) (a : Nat)
    (h : ∀ l, ∀ x ∈ xs, l + (g (k x)).length ≤ f l x) :
    a + ((xs.map k).flatMap g).length ≤ xs.foldl f a := by
  induction xs generalizing a with
  | nil => simp
  | cons x xs ih =>
    have h1 := h a x (by simp)
    have h2 := ih (f a x) fun l y hy => h l y (by simp [hy])
    rw [List.map_cons, List.flatMap_cons, List.length_append, List.foldl_cons]
    omega

theorem int32s_length (xs : List Int32) : ((xs.map Int32.toInt).flatMap Kafka.int32).length = 4 * xs.length := by
  rw [flatMap_length_const _ (fun _ _ => int32_length _), List.length_map]; omega

end Healer
