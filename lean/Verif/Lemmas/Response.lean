import Verif.Model.Response
import Verif.Spec.Response
import Verif.Lemmas.Request2

/-!
# Reading responses
-/

namespace Healer

/-- `CReads` for encodings that fit into one response. -/
def SReads {α : Type} (c : Cur α) (enc : Bytes) (a : α) : Prop := enc.length < 2 ^ 31 → CReads c enc a

theorem CReads.s {α : Type} {c : Cur α} {enc : Bytes} {a : α} (h : CReads c enc a) : SReads c enc a := fun _ => h

theorem SReads.bind {α β : Type} {m : Cur α} {f : α → Cur β} {e1 e2 : Bytes} {a : α} {b : β}
    (h1 : SReads m e1 a) (h2 : SReads (f a) e2 b) : SReads (m >>= f) (e1 ++ e2) b := by
  intro h
  rw [List.length_append] at h
  exact CReads.bind (h1 (by omega)) (h2 (by omega))

theorem SReads.bind_pure {α β : Type} {m : Cur α} {g : α → β} {e1 : Bytes} {a : α}
    (h1 : SReads m e1 a) : SReads (m >>= fun x => Pure.pure (g x)) e1 (g a) :=
  fun h => CReads.bind_pure (h1 h)

theorem SReads.cast {α : Type} {c : Cur α} {e e' : Bytes} {a a' : α}
    (h : SReads c e a) (he : e = e') (ha : a = a') : SReads c e' a' := by
  subst he; subst ha; exact h

theorem SReads.cond' {α : Type} {c c' : Prop} [Decidable c] [Decidable c'] {m : Cur α} {e : Bytes}
    {a d : α} (hcc : c ↔ c') (h : c → SReads m e a) :
    SReads (Cur.cond c m d) (if c' then e else []) (if c' then a else d) := by
  intro hl
  refine CReads.cond' hcc fun hc => h hc ?_
  rwa [if_pos (hcc.1 hc)] at hl

theorem SReads.call_run {α : Type} {c : Cur α} {e : Bytes} {a : α} (h : SReads c e a) :
    SReads (Cur.call (Cur.run c)) e a := fun hl => CReads.call (CReads.run (h hl))

theorem sreads_i16 (v : Int16) : SReads rdI16 (Kafka.int16 v.toInt) v := (creads_int16 v).s
theorem sreads_i32 (v : Int32) : SReads rdI32 (Kafka.int32 v.toInt) v := (creads_int32 v).s
theorem sreads_i64 (v : Int64) : SReads rdI64 (Kafka.int64 v.toInt) v := (creads_int64 v).s
theorem sreads_u16 (v : UInt16) : SReads rdU16 (Kafka.int16 v.toNat) v := (creads_u16 v).s
theorem sreads_u32 (v : UInt32) : SReads rdU32 (Kafka.int32 v.toNat) v := (creads_u32 v).s
theorem sreads_u8 (v : UInt8) : SReads rdU8 [v] v := (reads_rdU8 v).s

theorem sreads_bool (b : Bool) : SReads rdBool (Kafka.boolean b) b :=
  ((CReads.bind_pure (g := fun b => b != 0) (reads_rdU8 (if b then 1 else 0))).cast rfl (by cases b <;> rfl)).s

theorem sreads_str16 {s : Bytes} (h : Kafka.IsString s) : SReads rdStr16 (Kafka.string s) s := by
  unfold Kafka.IsString at h
  exact (CReads.bind (creads_len16 _) (reads_rdBytes s _ (by rw [toNat_len16 _ (by omega)]))).s

theorem sreads_strI16 {s : Bytes} (h : Kafka.IsString s) : SReads rdStrI16 (Kafka.string s) s :=
  (CReads.bind (creads_ilen16 _) (reads_rdBytes s _ (by rw [toInt_ilen16 _ h]))).s

theorem sreads_strPos {s : Option Bytes} (h : ∀ b, s = some b → Kafka.IsString b) :
    SReads rdStrPos (Kafka.nullableString s) (s.getD []) := by
  cases s with
  | none =>
    intro _
    have h0 : CReads (Cur.cond (0 < (-1 : Int16).toInt) (rdBytes (-1 : Int16).toInt) []) [] ([] : Bytes) := by
      unfold Cur.cond
      rw [if_neg (by decide)]
      exact CReads.pure _
    exact (CReads.bind creads_minus1_16 h0).cast rfl rfl
  | some s =>
    intro _
    have h := h s rfl
    refine (CReads.bind (creads_ilen16 s.length) (CReads.cond (e := s) (a := s) ?_)).cast ?_ ?_
    · intro _; exact reads_rdBytes s _ (by rw [toInt_ilen16 _ h])
    · rw [toInt_ilen16 _ h]
      cases s with
      | nil => rfl
      | cons a s => rw [if_pos (by simp)]; rfl
    · rw [toInt_ilen16 _ h]
      cases s with
      | nil => rfl
      | cons a s => rw [if_pos (by simp)]; rfl

theorem sreads_bytes32 (s : Bytes) : SReads rdBytes32 (Kafka.bytes s) s := by
  intro h
  rw [bytes_length] at h
  exact CReads.bind (creads_len32 _) (reads_rdBytes s _ (by rw [toNat_len32 _ (by omega)]))

theorem flatMap_length_ge {α : Type} {enc : α → Bytes} (xs : List α) (h : ∀ x, 0 < (enc x).length) :
    xs.length ≤ (xs.flatMap enc).length := by
  induction xs with
  | nil => simp
  | cons x xs ih =>
    rw [List.flatMap_cons, List.length_append, List.length_cons]
    have := h x
    omega

theorem mem_flatMap_length {α : Type} {enc : α → Bytes} (xs : List α) (x : α) (h : x ∈ xs) :
    (enc x).length ≤ (xs.flatMap enc).length := by
  induction xs with
  | nil => cases h
  | cons y xs ih =>
    rw [List.flatMap_cons, List.length_append]
    cases h with
    | head => omega
    | tail _ h => have := ih h; omega

theorem SReads.forN {α β : Type} {c : Cur β} {enc : α → Bytes} {g : α → β} (xs : List α)
    (h : ∀ x ∈ xs, SReads c (enc x) (g x)) : SReads (Cur.forN xs.length c) (xs.flatMap enc) (xs.map g) := by
  intro hl
  exact CReads.forN xs fun x hx => h x hx (by have := mem_flatMap_length (enc := enc) xs x hx; omega)

/-- An array of things written from `k x` and read back as `x`. -/
theorem sreads_arr32 {α β : Type} {c : Cur β} {enc : α → Bytes} (k : β → α) (xs : List β)
    (h0 : ∀ x, 0 < (enc x).length) (h : ∀ x ∈ xs, SReads c (enc (k x)) x) :
    SReads (rdArr32 c) (Kafka.array enc (xs.map k)) xs := by
  intro hl
  unfold Kafka.array at hl ⊢
  rw [List.length_append, int32_length] at hl
  have := flatMap_length_ge (xs.map k) h0
  refine CReads.bind (creads_len32 _) ?_
  rw [toNat_len32 _ (by omega)]
  have := SReads.forN (c := c) (enc := fun x => enc (k x)) (g := id) xs h
  rw [List.map_id] at this
  rw [List.flatMap_map, List.length_map]
  exact this (by rw [← List.flatMap_map]; omega)

/-- Same, for elements written as they are. -/
theorem sreads_arr32' {β γ : Type} {c : Cur γ} {enc : β → Bytes} (g : β → γ) (xs : List β)
    (h0 : ∀ x, 0 < (enc x).length) (h : ∀ x ∈ xs, SReads c (enc x) (g x)) :
    SReads (rdArr32 c) (Kafka.array enc xs) (xs.map g) := by
  intro hl
  unfold Kafka.array at hl ⊢
  rw [List.length_append, int32_length] at hl
  have := flatMap_length_ge xs h0
  refine CReads.bind (creads_len32 _) ?_
  rw [toNat_len32 _ (by omega)]
  exact SReads.forN xs h (by omega)

theorem openFrame_ok (body : Bytes) (h : body.length < 2 ^ 32) :
    openFrame (Kafka.frame body) 0 = .ok ((), 4) := by
  unfold openFrame Kafka.frame
  have := creads_len32 body.length [] body
  simp only [List.nil_append, List.length_nil] at this
  rw [Cur.bind_def]
  have e : ((0 : Nat) : Int) = 0 := rfl
  rw [e] at this
  rw [this]
  simp only [Cur.bind_def, Cur.payloadLen, List.length_append, int32_length]
  rw [toNat_len32 _ h, if_pos (by omega)]
  rfl

theorem respond_frame {α : Type} {c : Cur α} {body : Bytes} {a : α} (h : SReads c body a)
    (hl : (Kafka.frame body).length < 2 ^ 31) : respond c (Kafka.frame body) = .ok a := by
  unfold respond
  have hb : body.length < 2 ^ 31 := by
    unfold Kafka.frame at hl; rw [List.length_append] at hl; omega
  rw [Cur.bind_def, openFrame_ok _ (by omega)]
  have := h hb (Kafka.int32 body.length) []
  rw [int32_length, List.append_nil] at this
  have e : ((4 : Nat) : Int) = 4 := rfl
  rw [e] at this
  unfold Kafka.frame
  simp only [this]

theorem respond_mismatch {α : Type} (c : Cur α) (n : UInt32) (rest : Bytes) (h : n.toNat ≠ rest.length) :
    respond c (Kafka.int32 n.toNat ++ rest) = .err .lengthMismatch := by
  unfold respond openFrame
  have := creads_u32 n [] rest
  simp only [List.nil_append, List.length_nil] at this
  have e : ((0 : Nat) : Int) = 0 := rfl
  rw [e] at this
  simp only [Cur.bind_def, this, Cur.payloadLen, List.length_append, int32_length]
  rw [if_neg (by omega)]
  rfl

theorem response_plain (a : Kafka.Api) (v corr : Nat) (tags : List (Nat × Bytes)) (body : Bytes)
    (h : a.responseHeaderVersion v = 0) :
    Kafka.response a v corr tags body = Kafka.frame (Kafka.int32 corr ++ body) := by
  unfold Kafka.response Kafka.responseHeader
  rw [h]
  simp

/-- non-empty encodings -/
syntax "nonempty" : tactic
macro_rules
  | `(tactic| nonempty) => `(tactic| (intros; simp only [List.length_append, int16_length, int32_length, int64_length,
      string_length, List.length_cons, array_length, uvarint_length_pos]; omega))

/-- Reads the correlation id and the body of a response with header version 0. -/
theorem respond_plain {α : Type} {f : UInt32 → Cur α} {api : Kafka.Api} {v : Nat} {corr : UInt32} {body : Bytes} {a : α}
    (hv : api.responseHeaderVersion v = 0) (h : SReads (f corr) body a)
    (hl : (Kafka.response api v corr.toNat [] body).length < 2 ^ 31) :
    respond (rdU32 >>= f) (Kafka.response api v corr.toNat [] body) = .ok a := by
  rw [response_plain _ _ _ _ _ hv] at hl ⊢
  exact respond_frame (SReads.bind (sreads_u32 _) h) hl

/-! ## Flexible versions -/

theorem sreads_compactString (s : Bytes) : SReads (Cur.call compactString) (Kafka.compactString s) s := by
  intro h
  rw [compactString_length] at h
  exact CReads.call (reads_compactString s (by omega))

theorem sreads_compactNullableString (s : Option Bytes) :
    SReads (Cur.call compactNullableString) (Kafka.compactNullableString s) s := by
  intro h
  refine CReads.call (reads_compactNullableString s ?_)
  intro b hb
  subst hb
  simp only [Kafka.compactNullableString, List.length_append] at h
  omega

theorem sreads_nullableString {s : Option Bytes} (h : ∀ b, s = some b → Kafka.IsString b) :
    SReads (Cur.call nullableString) (Kafka.nullableString s) s := fun _ => CReads.call (reads_nullableString s h)

theorem sreads_nonnullableString {s : Bytes} (h : Kafka.IsString s) :
    SReads (Cur.call nonnullableString) (Kafka.string s) s := fun _ =>
  CReads.call (reads_nonnullableString s (by unfold Kafka.IsString at h; omega))

theorem sreads_flexString {f : Bool} {s : Bytes} (h : f = false → Kafka.IsString s) :
    SReads (rdFlexString f) (Kafka.flexString f s) s := by
  cases f with
  | true => exact sreads_compactString s
  | false => exact sreads_nonnullableString (h rfl)

theorem sreads_flexNullable {f : Bool} {s : Option Bytes} (h : f = false → ∀ b, s = some b → Kafka.IsString b) :
    SReads (rdFlexNullable f) (Kafka.flexNullable f s) s := by
  cases f with
  | true => exact sreads_compactNullableString s
  | false => exact sreads_nullableString (h rfl)

theorem sreads_tags {t : TaggedFields} (h : t.Fits) :
    SReads (Cur.call decodeTaggedFields) (Kafka.tagBuffer t.wire) t.norm := fun _ => CReads.call (reads_taggedFields' t h)

/-- the count of an array, as the code sees it -/
theorem sreads_flexCount (f : Bool) (n : Nat) (h : n < 2 ^ 31) :
    SReads (rdFlexCount f) (if f then Kafka.uvarint (n + 1) else Kafka.int32 n) (Int32.ofInt n) := by
  cases f with
  | true => exact fun _ => CReads.call (reads_compactArrayLength n h)
  | false =>
    refine fun _ => (creads_ilen32 n).cast rfl ?_
    apply Int32.toInt_inj.1
    rw [toInt_ilen32 n h, toInt32_of_spec _ (by omega)]

/-- An array written from `w x` and read as `k x`: count, then whatever `body` does with a count `n ≥ 0`. -/
theorem sreads_flexArr {α β γ δ : Type} {c : Cur β} {enc : α → Bytes} {body : Int32 → Cur γ} {tail : Bytes} {out : γ}
    (f : Bool) (w : δ → α) (k : δ → β) (xs : List δ) (h0 : ∀ x, 0 < (enc x).length)
    (h : ∀ x ∈ xs, SReads c (enc (w x)) (k x))
    (hb : ∀ n : Int32, n.toInt = xs.length →
      SReads (Cur.forN xs.length c) ((xs.map w).flatMap enc) (xs.map k) →
        SReads (body n) ((xs.map w).flatMap enc ++ tail) out) :
    SReads (rdFlexCount f >>= body) (Kafka.flexArray f enc (xs.map w) ++ tail) out := by
  intro hl
  have e : Kafka.flexArray f enc (xs.map w) =
      (if f then Kafka.uvarint (xs.length + 1) else Kafka.int32 xs.length) ++ (xs.map w).flatMap enc := by
    cases f <;> simp [Kafka.flexArray, Kafka.array, Kafka.compactArray]
  rw [e, List.append_assoc] at hl ⊢
  simp only [List.length_append] at hl
  have := flatMap_length_ge (xs.map w) h0
  rw [List.length_map] at this
  refine CReads.bind (sreads_flexCount f xs.length (by omega) (by omega)) ?_
  refine hb _ (by rw [toInt32_of_spec _ (by omega)]) ?_ (by rw [List.length_append]; omega)
  rw [List.flatMap_map]
  exact SReads.forN xs h

/-- `make([]T, n)` and the filling loop, when the count may not be negative -/
theorem sreads_forInt {β : Type} {c : Cur β} {enc : Bytes} {ys : List β} {n : Int} {m : Nat} (hn : n = m)
    (h : SReads (Cur.forN m c) enc ys) : SReads (Cur.forInt n c) enc ys := by
  unfold Cur.forInt
  subst hn
  rw [if_neg (by omega)]
  exact h

/-- `if n >= 0 { make; loop }` -/
theorem sreads_condN {β : Type} {c : Cur β} {enc : Bytes} {ys : List β} {n : Int} {m : Nat} (hn : n = m)
    (h : SReads (Cur.forN m c) enc ys) : SReads (Cur.cond (0 ≤ n) (Cur.forN n.toNat c) []) enc ys := by
  unfold Cur.cond
  subst hn
  rw [if_pos (by omega)]
  exact h

/-- `if n > 0 { make; loop }` -/
theorem sreads_condPos {β : Type} {c : Cur β} {enc : Bytes} {ys : List β} {n : Int} {m : Nat} (hn : n = m)
    (h : SReads (Cur.forN m c) enc ys) : SReads (Cur.cond (0 < n) (Cur.forN n.toNat c) []) enc ys := by
  unfold Cur.cond
  subst hn
  by_cases h0 : m = 0
  · subst h0; exact h
  · rw [if_pos (by omega)]
    exact h

theorem sreads_flexTags {f : Bool} {t : TaggedFields} (h : t.Fits) :
    SReads (Cur.cond (f = true) (Cur.call decodeTaggedFields) none) (Kafka.flexTags f t.wire)
      (if f then t.norm else none) := by
  have := SReads.cond' (c := f = true) (c' := f = true) (d := (none : TaggedFields)) .rfl fun _ => sreads_tags h
  exact this.cast (by cases f <;> rfl) rfl

theorem flexString_pos (f : Bool) (s : Bytes) : 0 < (Kafka.flexString f s).length := by
  unfold Kafka.flexString
  split
  · rw [compactString_length]; have := uvarint_length_pos (s.length + 1); omega
  · rw [string_length]; omega

/-- Reads the header and the body of a response. -/
theorem respond_header {α : Type} {f : ResponseHeader → Cur α} {api : Kafka.Api} {key v hv : UInt16} {corr : UInt32}
    {tags : TaggedFields} {body : Bytes} {a : α} (hh : responseHeaderVersion key v = some hv)
    (hv' : api.responseHeaderVersion v.toNat = hv.toNat) (ht : tags.Fits)
    (h : SReads (f { apiKey := key, apiVersion := v, headerVersion := hv, correlationID := corr,
                     taggedFields := if 1 ≤ hv.toNat then tags.norm else none }) body a)
    (hl : (Kafka.response api v.toNat corr.toNat tags.wire body).length < 2 ^ 31) :
    respond (Cur.call (decodeResponseHeader key v) >>= f) (Kafka.response api v.toNat corr.toNat tags.wire body) = .ok a := by
  unfold Kafka.response at hl ⊢
  rw [hv'] at hl ⊢
  exact respond_frame (SReads.bind (CReads.call (reads_responseHeader key v hv hh corr tags ht)).s h) hl

end Healer
