/-!
# Go run-time vocabulary

Bytes, outcomes of Go code (value, error return, run-time panic), big-endian integers and the
varints of Go's `encoding/binary`.  This file models the Go language and standard library, not
the repository; the repository's functions are modelled in `Verif/Model`.
-/

namespace Healer

/-- A Go byte slice or string: strings in Go are byte sequences. -/
notation "Bytes" => List UInt8

/-- Error values returned by the modelled functions.  Only the identity that callers branch on
is kept; message texts are dropped. -/
inductive Err where
  /-- `KafkaError(code)`, errorcode.go:6. -/
  | kafka (code : Int16)
  /-- `fmt.Errorf("unknown error code...")`, errorcode.go:33-43. -/
  | unknownCode (code : Int16)
  /-- length prefix differs from the size of the payload -/
  | lengthMismatch
  /-- error.go: `maxBytesTooSmall` -/
  | maxBytesTooSmall
  /-- error.go: `noPartitionResponse` -/
  | noPartitionResponse
  /-- error.go: `emptyPayload` -/
  | emptyPayload
  /-- error.go: `noAvaliableBrokers` -/
  | noAvailableBrokers
  /-- record.go: `errUncompleteRecord` -/
  | uncompleteRecord
  /-- `io.EOF` -/
  | eof
  /-- `io.ErrUnexpectedEOF` -/
  | unexpectedEof
  /-- an error of the net package whose `Timeout()` is true: a deadline passed -/
  | timeout
  /-- `syscall.EPIPE`: writing to a connection the peer closed -/
  | epipe
  /-- `ErrProducerClosed`, simple_producer.go:11 -/
  | producerClosed
  /-- any other error -/
  | other (s : String)
  /-- `fmt.Errorf("...: %w", e)` -/
  | wrapped (e : Err)
deriving DecidableEq, Repr

/-- `errors.Is(e, target)` for the error values above -/
def Err.is (e target : Err) : Bool :=
  decide (e = target) || match e with
    | .wrapped e' => Err.is e' target
    | _ => false


/-- Outcome of a Go call returning `(a, error)`: a value, a non-nil error, or a panic. -/
inductive Out (α : Type u) where
  | ok (a : α)
  | err (e : Err)
  | panic
deriving Repr, DecidableEq

namespace Out

@[inline] protected def bind {α : Type u} {β : Type v} (m : Out α) (f : α → Out β) : Out β :=
  match m with
  | ok a => f a
  | err e => err e
  | panic => panic

instance : Monad Out where
  pure := ok
  bind := Out.bind

/-- The outcome is a value with the given property (used in examples). -/
def okAnd {α : Type u} (o : Out α) (p : α → Bool) : Bool := match o with
  | .ok a => p a
  | _ => false

@[simp] theorem bind_ok {α β : Type u} (a : α) (f : α → Out β) : (ok a >>= f) = f a := rfl
@[simp] theorem bind_err {α β : Type u} (e : Err) (f : α → Out β) :
    ((err e : Out α) >>= f) = err e := rfl
@[simp] theorem bind_panic {α β : Type u} (f : α → Out β) :
    ((panic : Out α) >>= f) = panic := rfl
@[simp] theorem pure_eq {α : Type u} (a : α) : (pure a : Out α) = ok a := rfl

end Out

/-! ## Big-endian integers (`binary.BigEndian`) -/

/-- The `w` low-order bytes of `v`, most significant first. -/
def beBytes : Nat → Nat → Bytes
  | 0, _ => []
  | w + 1, v => UInt8.ofNat (v / 256 ^ w) :: beBytes w v

/-- Value of a big-endian byte sequence. -/
def beVal (bs : Bytes) : Nat := bs.foldl (fun a b => a * 256 + b.toNat) 0

@[simp] theorem beBytes_length (w v : Nat) : (beBytes w v).length = w := by
  induction w with
  | zero => rfl
  | succ w ih => simp [beBytes, ih]

theorem beVal_foldl (bs : Bytes) (a : Nat) :
    bs.foldl (fun a b => a * 256 + b.toNat) a = a * 256 ^ bs.length + beVal bs := by
  induction bs generalizing a with
  | nil => simp [beVal]
  | cons b bs ih =>
    simp only [List.foldl_cons, List.length_cons, beVal]
    rw [ih, ih (0 * 256 + b.toNat)]
    rw [Nat.pow_succ, Nat.add_mul]
    have : 256 ^ bs.length * 256 = 256 * 256 ^ bs.length := Nat.mul_comm _ _
    rw [this, ← Nat.mul_assoc]
    simp [Nat.add_assoc]

theorem beVal_cons (b : UInt8) (bs : Bytes) :
    beVal (b :: bs) = b.toNat * 256 ^ bs.length + beVal bs := by
  show List.foldl _ _ _ = _
  rw [List.foldl_cons, beVal_foldl]
  simp

theorem beVal_lt (bs : Bytes) : beVal bs < 256 ^ bs.length := by
  induction bs with
  | nil => simp [beVal]
  | cons b bs ih =>
    rw [beVal_cons, List.length_cons, Nat.pow_succ]
    have hb : b.toNat < 256 := b.toNat_lt
    have : b.toNat * 256 ^ bs.length + 256 ^ bs.length ≤ 256 * 256 ^ bs.length := by
      rw [← Nat.succ_mul]; exact Nat.mul_le_mul_right _ hb
    omega

theorem beVal_beBytes (w v : Nat) : beVal (beBytes w v) = v % 256 ^ w := by
  induction w with
  | zero => simp [beBytes, beVal, Nat.mod_one]
  | succ w ih =>
    rw [beBytes, beVal_cons, ih, beBytes_length]
    rw [UInt8.toNat_ofNat']
    have h := Nat.mod_mul (x := v) (a := 256 ^ w) (b := 256)
    rw [show 256 ^ (w + 1) = 256 ^ w * 256 from Nat.pow_succ .., h]
    have h2 : v / 256 ^ w % 2 ^ 8 * 256 ^ w = 256 ^ w * (v / 256 ^ w % 256) := by
      rw [Nat.mul_comm]
    omega

/-- `binary.BigEndian.AppendUint16` -/
def be16 (v : UInt16) : Bytes := beBytes 2 v.toNat
/-- `binary.BigEndian.AppendUint32` -/
def be32 (v : UInt32) : Bytes := beBytes 4 v.toNat
/-- `binary.BigEndian.AppendUint64` -/
def be64 (v : UInt64) : Bytes := beBytes 8 v.toNat

@[simp] theorem be16_length (v : UInt16) : (be16 v).length = 2 := beBytes_length _ _
@[simp] theorem be32_length (v : UInt32) : (be32 v).length = 4 := beBytes_length _ _
@[simp] theorem be64_length (v : UInt64) : (be64 v).length = 8 := beBytes_length _ _

/-! ## Varints (`encoding/binary`: `PutUvarint`, `Uvarint`, `PutVarint`, `Varint`) -/

/-- Loop of `binary.AppendUvarint`; `fuel` bounds the number of iterations. -/
def putUvarintLoop : Nat → Nat → Bytes
  | 0, x => [UInt8.ofNat x]
  | fuel + 1, x =>
    if x < 128 then [UInt8.ofNat x]
    else UInt8.ofNat (x % 128 + 128) :: putUvarintLoop fuel (x / 128)

/-- `binary.AppendUvarint`: low-order groups of seven bits first, high bit set on all but the last. -/
def putUvarint (x : Nat) : Bytes := putUvarintLoop x x

theorem putUvarintLoop_fuel (f x : Nat) (h : x ≤ f) : putUvarintLoop f x = putUvarintLoop x x := by
  induction f using Nat.strongRecOn generalizing x with
  | _ f ih =>
    cases f with
    | zero => have : x = 0 := by omega
              subst this; rfl
    | succ f =>
      cases x with
      | zero => simp [putUvarintLoop]
      | succ x =>
        simp only [putUvarintLoop]
        split
        · rfl
        · rw [ih f (by omega) _ (by omega)]
          by_cases hx : x < f + 1
          · rw [ih x hx _ (by omega)]
          · omega

/-- Recursion equation of the varint writer. -/
theorem putUvarint_unfold (x : Nat) :
    putUvarint x = if x < 128 then [UInt8.ofNat x]
      else UInt8.ofNat (x % 128 + 128) :: putUvarint (x / 128) := by
  unfold putUvarint
  cases x with
  | zero => simp [putUvarintLoop]
  | succ x =>
    rw [putUvarintLoop]
    split
    · rfl
    · rw [putUvarintLoop_fuel x _ (by omega)]

/-- Loop of `binary.Uvarint`: `i` bytes read so far, `x` accumulated value.
Returns `(0, 0)` when the buffer is too short and `(0, -(i+1))` on overflow, as in Go. -/
def uvarintLoop : Bytes → Nat → Nat → Nat × Int
  | [], _, _ => (0, 0)
  | b :: bs, i, x =>
    if i = 10 then (0, -(i + 1 : Int))
    else if b.toNat < 128 then
      if i = 9 ∧ b.toNat > 1 then (0, -(i + 1 : Int))
      else (x + b.toNat * 128 ^ i, (i + 1 : Int))
    else uvarintLoop bs (i + 1) (x + (b.toNat % 128) * 128 ^ i)

/-- `binary.Uvarint(buf)`: value and number of bytes read. -/
def uvarint (bs : Bytes) : Nat × Int := uvarintLoop bs 0 0

theorem putUvarint_length_pos (x : Nat) : 0 < (putUvarint x).length := by
  rw [putUvarint_unfold]; split <;> simp

theorem putUvarint_length_le (k x : Nat) (hx : x < 128 ^ (k + 1)) :
    (putUvarint x).length ≤ k + 1 := by
  induction k generalizing x with
  | zero => rw [putUvarint_unfold]; simp at hx; simp [hx]
  | succ k ih =>
    rw [putUvarint_unfold]; split
    · simp
    · have : x / 128 < 128 ^ (k + 1) := by
        rw [Nat.div_lt_iff_lt_mul (by omega)]; rwa [Nat.pow_succ] at hx
      simp [ih _ this]

theorem putUvarint_length_gt (k x : Nat) (hx : 128 ^ k ≤ x) :
    k < (putUvarint x).length := by
  induction k generalizing x with
  | zero => exact putUvarint_length_pos x
  | succ k ih =>
    rw [putUvarint_unfold]; split
    · rename_i h
      have : 128 ^ (k+1) ≥ 128 := by
        rw [Nat.pow_succ]; have := Nat.one_le_pow k 128 (by omega); omega
      omega
    · have : 128 ^ k ≤ x / 128 := by
        rw [Nat.le_div_iff_mul_le (by omega)]; rwa [Nat.pow_succ] at hx
      simpa using ih _ this

theorem uvarintLoop_put (x : Nat) (rest : Bytes) (i acc : Nat)
    (hx : x * 128 ^ i < 2 ^ 64) (hpos : 1 ≤ x ∨ i ≤ 9) :
    uvarintLoop (putUvarint x ++ rest) i acc
      = (acc + x * 128 ^ i, ((i + (putUvarint x).length : Nat) : Int)) := by
  induction x using Nat.strongRecOn generalizing i acc with
  | _ x ih =>
    have hi : i ≤ 9 := by
      rcases hpos with h | h
      · apply Nat.le_of_not_lt
        intro hlt
        have : 128 ^ 10 ≤ 128 ^ i := Nat.pow_le_pow_right (by omega) hlt
        have h3 : 1 * 128 ^ i ≤ x * 128 ^ i := Nat.mul_le_mul_right _ h
        have : (128:Nat) ^ 10 = 2 ^ 70 := by decide
        omega
      · exact h
    rw [putUvarint_unfold]
    split
    · rename_i hlt
      have hb : (UInt8.ofNat x).toNat = x := by
        rw [UInt8.toNat_ofNat']; omega
      simp only [List.cons_append, List.nil_append, uvarintLoop, hb, List.length_singleton]
      rw [if_neg (by omega), if_pos hlt, if_neg]
      · simp
      · rintro ⟨rfl, hgt⟩
        have : (128:Nat) ^ 9 = 2 ^ 63 := by decide
        rw [this] at hx
        omega
    · rename_i hge
      have hb : (UInt8.ofNat (x % 128 + 128)).toNat = x % 128 + 128 := by
        rw [UInt8.toNat_ofNat']; omega
      simp only [List.cons_append, uvarintLoop, hb, List.length_cons]
      rw [if_neg (by omega), if_neg (by omega)]
      have hmul : x / 128 * 128 ^ (i + 1) ≤ x * 128 ^ i := by
        rw [Nat.pow_succ, Nat.mul_comm (128 ^ i) 128, ← Nat.mul_assoc]
        exact Nat.mul_le_mul_right _ (Nat.div_mul_le_self x 128)
      rw [ih (x / 128) (by omega) (i + 1) _ (by omega) (Or.inl (by omega))]
      congr 1
      · have h1 : (x % 128 + 128) % 128 = x % 128 := by omega
        rw [h1, Nat.add_assoc, Nat.pow_succ, Nat.mul_comm (128 ^ i) 128, ← Nat.mul_assoc,
          ← Nat.add_mul]
        congr 2; omega
      · have : i + 1 + (putUvarint (x / 128)).length = i + ((putUvarint (x / 128)).length + 1) := by
          omega
        rw [this]

/-- `binary.Uvarint` undoes `binary.PutUvarint`, whatever follows. -/
theorem uvarint_put (x : Nat) (hx : x < 2 ^ 64) (rest : Bytes) :
    uvarint (putUvarint x ++ rest) = (x, ((putUvarint x).length : Int)) := by
  have := uvarintLoop_put x rest 0 0 (by simpa using hx) (Or.inr (by omega))
  simpa [uvarint] using this

/-- zig-zag of `binary.PutVarint`: `ux := uint64(x) << 1; if x < 0 { ux = ^ux }` -/
def zigzag (x : Int) : Nat := if x < 0 then (-2 * x - 1).toNat else (2 * x).toNat

/-- inverse zig-zag of `binary.Varint`: `x := int64(ux >> 1); if ux&1 != 0 { x = ^x }` -/
def unzigzag (u : Nat) : Int := if u % 2 = 1 then -((u / 2 : Nat) : Int) - 1 else ((u / 2 : Nat) : Int)

theorem unzigzag_zigzag (x : Int) : unzigzag (zigzag x) = x := by
  unfold zigzag unzigzag; split <;> split <;> omega

theorem zigzag_unzigzag (u : Nat) : zigzag (unzigzag u) = u := by
  unfold zigzag unzigzag; split <;> split <;> omega

/-- `binary.AppendVarint` for `x` in the int64 range. -/
def putVarint (x : Int) : Bytes := putUvarint (zigzag x)

/-- `binary.Varint(buf)`. -/
def varint (bs : Bytes) : Int × Int := let (u, n) := uvarint bs; (unzigzag u, n)

theorem zigzag_lt (x : Int) (h : -2 ^ 63 ≤ x ∧ x < 2 ^ 63) : zigzag x < 2 ^ 64 := by
  unfold zigzag; split <;> omega

theorem varint_put (x : Int) (h : -2 ^ 63 ≤ x ∧ x < 2 ^ 63) (rest : Bytes) :
    varint (putVarint x ++ rest) = (x, ((putVarint x).length : Int)) := by
  unfold varint putVarint
  rw [uvarint_put _ (zigzag_lt x h)]
  simp [unzigzag_zigzag]

end Healer
