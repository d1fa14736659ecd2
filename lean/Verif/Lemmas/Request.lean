import Verif.Model.Request
import Verif.Spec.Request
import Verif.Lemmas.Group
import Verif.Props.Header

/-! # Helper lemmas about request encoders -/

namespace Healer

theorem Writes.i8 (v : Int8) : Writes (Enc.i8 v) (Kafka.int8 v.toInt) := (Writes.put _).cast (int8_eq v)
theorem Writes.i16 (v : Int16) : Writes (Enc.i16 v) (Kafka.int16 v.toInt) := (Writes.put _).cast (be16_eq v)
theorem Writes.i32 (v : Int32) : Writes (Enc.i32 v) (Kafka.int32 v.toInt) := (Writes.put _).cast (be32_eq v)
theorem Writes.i64 (v : Int64) : Writes (Enc.i64 v) (Kafka.int64 v.toInt) := (Writes.put _).cast (be64_eq v)
theorem Writes.bool (b : Bool) : Writes (Enc.bool b) (Kafka.boolean b) := Writes.put _
theorem Writes.u32 (v : UInt32) : Writes (Enc.put (be32 v)) (Kafka.int32 v.toNat) := (Writes.put _).cast (be32_toNat v)

theorem Writes.str16 (s : Bytes) : Writes (Enc.str16 s) (Kafka.string s) :=
  (Writes.seq (Writes.put _) (Writes.cpy s)).cast (by rw [be16_ofNat]; rfl)

theorem Writes.bytes32 (s : Bytes) : Writes (Enc.bytes32 s) (Kafka.bytes s) :=
  (Writes.seq (Writes.put _) (Writes.cpy s)).cast (by rw [be32_ofNat]; rfl)

theorem Writes.arr32 {α β : Type} {f : α → Enc} {g : β → Bytes} {k : α → β} (xs : List α)
    (h : ∀ x ∈ xs, Writes (f x) (g (k x))) : Writes (Enc.arr32 f xs) (Kafka.array g (xs.map k)) := by
  refine (Writes.seq (Writes.put _) (Writes.each (g := fun x => g (k x)) xs h)).cast ?_
  rw [be32_ofNat, Kafka.array, List.length_map, List.flatMap_map]

theorem Writes.arr32' {α : Type} {f : α → Enc} {g : α → Bytes} (xs : List α)
    (h : ∀ x ∈ xs, Writes (f x) (g x)) : Writes (Enc.arr32 f xs) (Kafka.array g xs) := by
  have := Writes.arr32 (k := id) xs h
  rwa [List.map_id] at this

theorem Writes.all1 {e : Enc} {x : Bytes} (h : Writes e x) : Writes (Enc.all [e]) x :=
  (Writes.all_cons h Writes.all_nil).cast (by simp)

@[simp] theorem string_length (s : Bytes) : (Kafka.string s).length = 2 + s.length := by simp [Kafka.string]
@[simp] theorem bytes_length (s : Bytes) : (Kafka.bytes s).length = 4 + s.length := by simp [Kafka.bytes]
@[simp] theorem nullableString_length (s : Option Bytes) : (Kafka.nullableString s).length = 2 + optLen s := by
  cases s <;> simp [Kafka.nullableString, optLen]
theorem array_length {α : Type} (g : α → Bytes) (xs : List α) :
    (Kafka.array g xs).length = 4 + (xs.flatMap g).length := by simp [Kafka.array]
theorem array_length_const {α : Type} (g : α → Bytes) (xs : List α) (k : Nat) (h : ∀ x ∈ xs, (g x).length = k) :
    (Kafka.array g xs).length = 4 + xs.length * k := by
  rw [array_length, flatMap_length_const xs h]
@[simp] theorem array_int32_length (xs : List Int) : (Kafka.array Kafka.int32 xs).length = 4 + 4 * xs.length := by
  rw [array_length_const _ _ 4 (fun _ _ => int32_length _)]; omega

theorem foldl_array {α β : Type} {f : Nat → α → Nat} {g : β → Bytes} {k : α → β} (xs : List α) (a : Nat)
    (h : ∀ l, ∀ x ∈ xs, f l x = l + (g (k x)).length) :
    xs.foldl f a + 4 = a + (Kafka.array g (xs.map k)).length := by
  rw [array_length, List.flatMap_map, foldl_length (enc := fun x => g (k x)) xs a h]; omega

/-- Key of an API as the 16-bit constant used by the client. -/
theorem key_toNat (a : Kafka.Api) : (UInt16.ofNat a.key).toNat = a.key := by cases a <;> rfl

theorem hv_toNat (a : Kafka.Api) (v : Nat) :
    (UInt16.ofNat (a.requestHeaderVersion v)).toNat = a.requestHeaderVersion v := by
  unfold Kafka.Api.requestHeaderVersion; split <;> rfl

theorem reqHeader_version (a : Kafka.Api) (key v : UInt16) (corr : UInt32) (cid : Option Bytes)
    (hk : key = UInt16.ofNat a.key) :
    (reqHeader key v corr cid).headerVersion = .ok (UInt16.ofNat (a.requestHeaderVersion v.toNat)) := by
  subst hk
  simp only [RequestHeader.headerVersion, reqHeader, (C08_header_versions a v).1]

theorem reqHeader_flexible (a : Kafka.Api) (key v : UInt16) (corr : UInt32) (cid : Option Bytes)
    (hk : key = UInt16.ofNat a.key) : (reqHeader key v corr cid).isFlexible = .ok (a.flexible v.toNat) := by
  rw [isFlexible_ok (reqHeader_version a key v corr cid hk), hv_toNat]
  unfold Kafka.Api.requestHeaderVersion
  cases a.flexible v.toNat <;> rfl

/-- The header written for an API and version. -/
def hdr (a : Kafka.Api) (v : UInt16) (corr : UInt32) (cid : Option Bytes) : Bytes :=
  Kafka.requestHeader (a.requestHeaderVersion v.toNat) a.key v.toNat corr.toNat cid []

theorem reqHeader_writes (a : Kafka.Api) (key v : UInt16) (corr : UInt32) (cid : Option Bytes)
    (hk : key = UInt16.ofNat a.key) : Writes (reqHeader key v corr cid).encodeTo (hdr a v corr cid) := by
  refine (requestHeader_writes _ _ (reqHeader_version a key v corr cid hk) taggedFields_fits_none).cast ?_
  unfold RequestHeader.wire hdr
  rw [hv_toNat]
  simp only [reqHeader, hk, key_toNat]
  rfl

theorem hv_pos (a : Kafka.Api) (v : Nat) : 1 ≤ a.requestHeaderVersion v := by
  unfold Kafka.Api.requestHeaderVersion; split <;> omega

theorem reqHeader_length (a : Kafka.Api) (key v : UInt16) (corr : UInt32) (cid : Option Bytes)
    (hk : key = UInt16.ofNat a.key) : (reqHeader key v corr cid).length = .ok (hdr a v corr cid).length := by
  rw [requestHeader_length_exact _ _ (reqHeader_version a key v corr cid hk) (by rw [hv_toNat]; exact hv_pos ..) rfl]
  unfold RequestHeader.wire hdr
  rw [hv_toNat]
  simp only [reqHeader, hk, key_toNat]
  rfl

/-- Exact-length encoders produce the framed request. -/
theorem encodeSized_ok (a : Kafka.Api) {key v : UInt16} {corr : UInt32} {cid : Option Bytes} {n : Nat} {body : Enc}
    {bs : Bytes} (hk : key = UInt16.ofNat a.key) (hw : Writes body bs) (hn : n = bs.length) :
    encodeSized (reqHeader key v corr cid) n body = .ok (Kafka.request a v.toNat corr.toNat cid bs) := by
  unfold encodeSized
  rw [reqHeader_length a key v corr cid hk]
  simp only [Out.bind_ok]
  rw [encodeFull_exact (Writes.all_cons (Writes.put _) (Writes.all_cons (reqHeader_writes a key v corr cid hk)
    (Writes.all_cons hw Writes.all_nil)))]
  · simp only [be32_ofNat, List.append_nil]
    unfold Kafka.request Kafka.frame hdr
    rw [hn, List.length_append]
  · simp [be32_ofNat, hn]; omega

theorem patch_ok (bs : Bytes) :
    patch32 (UInt32.ofNat ((([0, 0, 0, 0] : Bytes) ++ bs).length - 4)) ([0, 0, 0, 0] ++ bs) = .ok (Kafka.frame bs) := by
  unfold patch32
  rw [if_pos (by simp)]
  have : (([0, 0, 0, 0] : Bytes) ++ bs).length - 4 = bs.length := by simp
  rw [this, be32_ofNat]
  rfl

/-- Upper-bound encoders produce the framed request when the bound holds. -/
theorem encodePatched_ok (a : Kafka.Api) {key v : UInt16} {corr : UInt32} {cid : Option Bytes} {n : Nat} {body : Enc}
    {bs : Bytes} (hk : key = UInt16.ofNat a.key) (hw : Writes body bs) (hn : bs.length ≤ n) :
    encodePatched (reqHeader key v corr cid) n body = .ok (Kafka.request a v.toNat corr.toNat cid bs) := by
  unfold encodePatched
  rw [reqHeader_length a key v corr cid hk]
  simp only [Out.bind_ok]
  rw [encodeCut_of_writes (Writes.all_cons (Writes.put _) (Writes.all_cons (reqHeader_writes a key v corr cid hk)
    (Writes.all_cons hw Writes.all_nil)))]
  · simp only [Out.bind_ok, List.append_nil]
    rw [patch_ok]; rfl
  · simp; omega

/-! ## Encoders never return more than their buffer holds -/

/-- `e` keeps the written part within the buffer. -/
structure Fits (e : Enc) : Prop where
  all : ∀ w w', w.data.length ≤ w.cap → e w = .ok w' → w'.cap = w.cap ∧ w'.data.length ≤ w'.cap

theorem Fits.put (bs : Bytes) : Fits (Enc.put bs) where
  all w w' h he := by
    unfold Enc.put at he
    split at he
    · simp only [Out.ok.injEq] at he; subst he; simp; assumption
    · exact absurd he (by simp)

theorem Fits.cpy (bs : Bytes) : Fits (Enc.cpy bs) where
  all w w' h he := by
    unfold Enc.cpy at he
    rw [if_pos h] at he
    simp only [Out.ok.injEq] at he; subst he; simp; omega

theorem Fits.nop : Fits Enc.nop where
  all w w' h he := by
    simp only [Enc.nop, Out.ok.injEq] at he; subst he; exact ⟨rfl, h⟩

theorem Fits.seq {a b : Enc} (ha : Fits a) (hb : Fits b) : Fits (Enc.seq a b) where
  all w w' h he := by
    unfold Enc.seq at he
    split at he
    · rename_i w1 h1
      have := ha.all w w1 h h1
      have h2 := hb.all w1 w' this.2 he
      exact ⟨h2.1.trans this.1, h2.2⟩
    · exact absurd he (by simp)
    · exact absurd he (by simp)

theorem Fits.each {α : Type} {f : α → Enc} (h : ∀ x, Fits (f x)) (xs : List α) : Fits (Enc.each f xs) := by
  induction xs with
  | nil => exact Fits.nop
  | cons x xs ih => exact Fits.seq (h x) ih

theorem Fits.all_nil : Fits (Enc.all []) := Fits.nop
theorem Fits.all_cons {e : Enc} {es : List Enc} (h1 : Fits e) (h2 : Fits (Enc.all es)) : Fits (Enc.all (e :: es)) :=
  Fits.seq h1 h2

theorem Fits.when {c : Bool} {e : Enc} (h : Fits e) : Fits (Enc.when c e) := by
  cases c
  · exact Fits.nop
  · exact h

theorem Fits.withO {α : Type} {o : Out α} {f : α → Enc} (h : ∀ a, Fits (f a)) : Fits (Enc.withO o f) where
  all w w' hw he := by
    unfold Enc.withO at he
    cases o with
    | ok a => exact (h a).all w w' hw he
    | err => exact absurd he (by simp)
    | panic => exact absurd he (by simp)

theorem Fits.cpyO (o : Out Bytes) : Fits (Enc.cpyO o) where
  all w w' hw he := by
    unfold Enc.cpyO at he
    cases o with
    | ok a => exact (Fits.cpy a).all w w' hw he
    | err => exact absurd he (by simp)
    | panic => exact absurd he (by simp)

theorem Fits.str16 (s : Bytes) : Fits (Enc.str16 s) := Fits.seq (Fits.put _) (Fits.cpy _)
theorem Fits.bytes32 (s : Bytes) : Fits (Enc.bytes32 s) := Fits.seq (Fits.put _) (Fits.cpy _)
theorem Fits.arr32 {α : Type} {f : α → Enc} (h : ∀ x, Fits (f x)) (xs : List α) : Fits (Enc.arr32 f xs) :=
  Fits.seq (Fits.put _) (Fits.each h xs)

macro "fits" : tactic => `(tactic| with_reducible repeat' (first
  | exact Fits.put _ | exact Fits.cpy _ | exact Fits.nop | exact Fits.all_nil | refine Fits.all_cons ?_ ?_
  | exact Fits.str16 _ | exact Fits.bytes32 _ | refine Fits.arr32 (fun _ => ?_) _ | exact Fits.cpyO _
  | refine Fits.when ?_ | refine Fits.withO fun _ => ?_ | refine Fits.each (fun _ => ?_) _ | refine Fits.seq ?_ ?_ | split))

theorem Fits.header (h : RequestHeader) : Fits h.encodeTo := by
  unfold RequestHeader.encodeTo; fits

/-- A request longer than the buffer is never produced. -/
theorem encodePatched_bad (a : Kafka.Api) {key v : UInt16} {corr : UInt32} {cid : Option Bytes} {n : Nat} {body : Enc}
    {bs : Bytes} (hk : key = UInt16.ofNat a.key) (hf : Fits body) (hn : n < bs.length) :
    encodePatched (reqHeader key v corr cid) n body ≠ .ok (Kafka.request a v.toNat corr.toNat cid bs) := by
  unfold encodePatched
  rw [reqHeader_length a key v corr cid hk]
  simp only [Out.bind_ok]
  intro h
  have hF : Fits (Enc.all [.put [0, 0, 0, 0], (reqHeader key v corr cid).encodeTo, body]) :=
    Fits.all_cons (Fits.put _) (Fits.all_cons (Fits.header _) (Fits.all_cons hf Fits.all_nil))
  cases he : encodeCut ((hdr a v corr cid).length + n + 4)
      (.all [.put [0, 0, 0, 0], (reqHeader key v corr cid).encodeTo, body]) with
  | err => rw [he] at h; exact absurd h (by simp [Out.bind_err])
  | panic => rw [he] at h; exact absurd h (by simp [Out.bind_panic])
  | ok p =>
    rw [he] at h
    simp only [Out.bind_ok] at h
    have hp : p.length ≤ (hdr a v corr cid).length + n + 4 := by
      unfold encodeCut at he
      split at he
      · rename_i w hw
        have := hF.all _ w (by simp) hw
        split at he
        · simp only [Out.ok.injEq] at he; subst he; exact Nat.le_trans this.2 (Nat.le_of_eq this.1)
        · exact absurd he (by simp)
      · exact absurd he (by simp)
      · exact absurd he (by simp)
    unfold patch32 at h
    split at h
    · rename_i h4
      simp only [Out.ok.injEq] at h
      have hl := congrArg List.length h
      have hb : ∀ x, (be32 x).length = 4 := fun x => by rw [be32_toNat]; simp
      have hr : (Kafka.request a v.toNat corr.toNat cid bs).length = 4 + (hdr a v corr cid).length + bs.length := by
        unfold Kafka.request Kafka.frame hdr; simp; omega
      rw [hr] at hl
      simp only [List.length_append, List.length_drop, hb] at hl
      omega
    · exact absurd h (by simp)

/-- `writes![a, b, c]`: the bytes written by `Enc.all` of three parts, from proofs about the parts. -/
syntax "writes![" term,* "]" : term
macro_rules
  | `(writes![$a]) => `(Writes.all1 $a)
  | `(writes![$a, $as,*]) => `(Writes.all_cons $a (writes![$as,*]))

end Healer
