import Verif.Lemmas.Primitive
import Verif.Model.Header
import Verif.Spec.Header

/-! # Helper lemmas about headers -/

namespace Healer

theorem Writes.cpyO {o : Out Bytes} {bs : Bytes} (h : o = .ok bs) : Writes (Enc.cpyO o) bs := by
  subst h; exact Writes.cpy bs

theorem Writes.withO {α : Type} {o : Out α} {f : α → Enc} {a : α} {bs : Bytes} (h : o = .ok a)
    (hw : Writes (f a) bs) : Writes (Enc.withO o f) bs := by
  subst h; exact hw

theorem be16_toNat (v : UInt16) : be16 v = Kafka.int16 v.toNat := by
  have := be16_ofNat v.toNat
  rwa [UInt16.ofNat_toNat] at this
theorem be32_toNat (v : UInt32) : be32 v = Kafka.int32 v.toNat := by
  have := be32_ofNat v.toNat
  rwa [UInt32.ofNat_toNat] at this
theorem be64_toNat (v : UInt64) : be64 v = Kafka.int64 v.toNat := by
  have := be64_ofNat v.toNat
  rwa [UInt64.ofNat_toNat] at this

theorem creads_u16 (v : UInt16) : CReads rdU16 (Kafka.int16 v.toNat) v :=
  (reads_rdU16 v).cast (be16_toNat v) rfl
theorem creads_u32 (v : UInt32) : CReads rdU32 (Kafka.int32 v.toNat) v :=
  (reads_rdU32 v).cast (be32_toNat v) rfl

/-- The tagged fields as (tag, payload) pairs. -/
def TaggedFields.wire (ts : TaggedFields) : List (Nat × Bytes) := (ts.getD []).map TaggedField.wire

/-- All tags and payload sizes within the protocol's range. -/
def TaggedFields.Fits (ts : TaggedFields) : Prop :=
  (ts.getD []).length < 2 ^ 63 ∧ ∀ t ∈ ts.getD [], t.Fits

theorem taggedFields_fits_none : TaggedFields.Fits none := by
  constructor
  · decide
  · intro t ht; simp at ht

theorem UInt16.ge_iff (v : UInt16) (n : Nat) (hn : n < 65536) :
    decide (v ≥ UInt16.ofNat n) = decide (n ≤ v.toNat) := by
  apply decide_eq_decide.2
  rw [ge_iff_le, UInt16.le_iff_toNat_le, UInt16.toNat_ofNat']
  have : n % 2 ^ 16 = n := by omega
  rw [this]

theorem ge1 (v : UInt16) : decide (v ≥ 1) = decide (1 ≤ v.toNat) := UInt16.ge_iff v 1 (by omega)
theorem ge2 (v : UInt16) : decide (v ≥ 2) = decide (2 ≤ v.toNat) := UInt16.ge_iff v 2 (by omega)

theorem isFlexible_ok {h : RequestHeader} {hv : UInt16} (hh : h.headerVersion = .ok hv) :
    h.isFlexible = .ok (decide (2 ≤ hv.toNat)) := by
  unfold RequestHeader.isFlexible
  rw [hh]; simp [ge2]

/-- Wire form of a header. -/
def RequestHeader.wire (h : RequestHeader) (hv : UInt16) : Bytes :=
  Kafka.requestHeader hv.toNat h.apiKey.toNat h.apiVersion.toNat h.correlationID.toNat h.clientID
    h.taggedFields.wire

theorem requestHeader_writes (h : RequestHeader) (hv : UInt16) (hh : h.headerVersion = .ok hv)
    (ht : h.taggedFields.Fits) : Writes h.encodeTo (h.wire hv) := by
  have h1 := Writes.withO (f := fun v => Enc.when (decide (v ≥ 1)) (.cpyO (encodeNullableString h.clientID)))
    hh (Writes.when (fun _ => Writes.cpyO (encodeNullableString_eq h.clientID)))
  have h2 := Writes.withO (f := fun f => Enc.when f (.cpyO h.taggedFields.encode)) (isFlexible_ok hh)
    (Writes.when (fun _ => Writes.cpyO (taggedFields_encode_eq h.taggedFields ht.2 (by have := ht.1; omega))))
  refine (Writes.all_cons (Writes.put _) (Writes.all_cons (Writes.put _) (Writes.all_cons (Writes.put _)
    (Writes.all_cons h1 (Writes.all_cons h2 Writes.all_nil))))).cast ?_
  unfold RequestHeader.wire Kafka.requestHeader TaggedFields.wire
  rw [ge1]
  simp only [be16_toNat, be32_toNat, decide_eq_true_eq, List.append_nil, List.append_assoc]

theorem requestHeader_length (h : RequestHeader) (hv : UInt16) (hh : h.headerVersion = .ok hv)
    (ht : h.taggedFields.Fits) : ∃ n, h.length = .ok n ∧ (h.wire hv).length ≤ n := by
  have hc : (Kafka.nullableString h.clientID).length
      = 2 + optLen h.clientID := by
    cases h.clientID <;> simp [Kafka.nullableString, optLen]
  have htag : (Kafka.tagBuffer h.taggedFields.wire).length
      ≤ (match h.taggedFields with | some _ => h.taggedFields.length | none => 1) := by
    have := taggedFields_length_ok h.taggedFields ht.2 (by have := ht.1; omega)
    cases hx : h.taggedFields with
    | none => decide
    | some l => rw [hx] at this; exact this
  unfold RequestHeader.length
  rw [isFlexible_ok hh]
  refine ⟨_, rfl, ?_⟩
  unfold RequestHeader.wire Kafka.requestHeader
  simp only [List.length_append, int16_length, int32_length]
  by_cases h2 : 2 ≤ hv.toNat
  · rw [if_pos (by omega), if_pos (by omega), if_pos (by simpa using h2)]
    revert htag
    cases h.taggedFields <;> simp only <;> intros <;> omega
  · simp only [decide_eq_true_eq, if_neg h2]
    split <;> simp only [List.length_nil] <;> omega

/-- Without tagged fields the reserved header length is exact. -/
theorem requestHeader_length_exact (h : RequestHeader) (hv : UInt16) (hh : h.headerVersion = .ok hv)
    (h1 : 1 ≤ hv.toNat) (ht : h.taggedFields = none) : h.length = .ok (h.wire hv).length := by
  have hc : (Kafka.nullableString h.clientID).length
      = 2 + optLen h.clientID := by
    cases h.clientID <;> simp [Kafka.nullableString, optLen]
  unfold RequestHeader.length
  rw [isFlexible_ok hh]
  unfold RequestHeader.wire Kafka.requestHeader
  simp only [List.length_append, int16_length, int32_length, ht, TaggedFields.wire, Option.getD,
    List.map_nil, Out.bind_ok]
  congr 1
  rw [if_pos h1]
  have : (Kafka.tagBuffer []).length = 1 := by decide
  by_cases h2 : 2 ≤ hv.toNat
  · rw [if_pos h2, if_pos (by simpa using h2), this]; omega
  · simp only [decide_eq_true_eq, if_neg h2]; simp; omega

/-- nil and empty tagged fields are the same on the wire -/
def TaggedFields.norm (t : TaggedFields) : TaggedFields := if t.getD [] = [] then none else t

theorem reads_taggedFields' (t : TaggedFields) (h : t.Fits) :
    Reads decodeTaggedFields (Kafka.tagBuffer t.wire) t.norm := by
  have := reads_taggedFields (t.getD []) h.2 (by have := h.1; omega)
  have e : (if t.getD [] = [] then none else some (t.getD [])) = t.norm := by
    unfold TaggedFields.norm
    cases t with
    | none => rfl
    | some l => simp
  rw [e] at this
  exact this

theorem reads_requestHeader (h : RequestHeader) (hv : UInt16)
    (hh : requestHeaderVersion h.apiKey h.apiVersion = some hv)
    (hc : ∀ b, h.clientID = some b → b.length < 2 ^ 15) (ht : h.taggedFields.Fits) :
    Reads decodeRequestHeader (h.wire hv)
      { h with hv := some hv, clientID := if 1 ≤ hv.toNat then h.clientID else none,
               taggedFields := if 2 ≤ hv.toNat then h.taggedFields.norm else none } := by
  apply CReads.run
  unfold RequestHeader.wire Kafka.requestHeader
  simp only [List.append_assoc]
  refine CReads.bind (creads_u16 _) (CReads.bind (creads_u16 _) (CReads.bind (creads_u32 _) ?_))
  simp only [RequestHeader.headerVersion, hh]
  have i1 : (hv ≥ 1) ↔ (1 ≤ hv.toNat) := (decide_eq_decide.1 (ge1 hv))
  have i2 : (hv ≥ 2) ↔ (2 ≤ hv.toNat) := (decide_eq_decide.1 (ge2 hv))
  refine CReads.bind (CReads.cond' i1 (fun _ => CReads.call (reads_nullableString h.clientID hc))) ?_
  refine CReads.bind_pure (CReads.cond' i2 (fun _ => CReads.call (reads_taggedFields' h.taggedFields ht))) |>.cast rfl ?_
  rfl

theorem reads_responseHeader (key version hv : UInt16) (hh : responseHeaderVersion key version = some hv)
    (corr : UInt32) (t : TaggedFields) (ht : t.Fits) :
    Reads (decodeResponseHeader key version) (Kafka.responseHeader hv.toNat corr.toNat t.wire)
      { apiKey := key, apiVersion := version, headerVersion := hv, correlationID := corr,
        taggedFields := if 1 ≤ hv.toNat then t.norm else none } := by
  apply CReads.run
  unfold Kafka.responseHeader
  simp only [hh]
  have i1 : (hv ≥ 1) ↔ (1 ≤ hv.toNat) := (decide_eq_decide.1 (ge1 hv))
  refine CReads.bind (creads_u32 _) ?_
  exact CReads.bind_pure (CReads.cond' i1 (fun _ => CReads.call (reads_taggedFields' t ht)))

end Healer
