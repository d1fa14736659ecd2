import Verif.Go.Basic

/-!
# Go decoding and encoding idioms

`GoDec α` is a Go function `f(payload []byte) (v, n int)`; `Cur α` is straight-line Go code that
walks a fixed `payload` with a local variable `offset`.  Slicing past the end panics.  In Go that is so for
`payload[a:]`; `payload[a:b]` panics only past the capacity.  The payloads of responses come from `make([]byte, n)`, so
there the two agree.  The records of a batch come from `io.ReadAll` or a decompressor, and what an encoder returns is
`payload[:offset]`; such slices may have spare capacity, and then reading a little past the end of malformed data can give
bytes where the model panics.  No theorem rests on this difference: where one states a panic on such data, it comes from
`make` with a negative length, or an index past the end follows in any case.

`Enc` is Go code filling a buffer made with `make([]byte, cap)`: `binary.BigEndian.PutUint*`
panics when the buffer is too short, `copy` silently truncates.
-/

namespace Healer

/-- `payload[offset:]` -/
def sliceFrom (p : Bytes) (off : Int) : Out Bytes :=
  if 0 ≤ off ∧ off ≤ p.length then .ok (p.drop off.toNat) else .panic

/-- `payload[lo:hi]` -/
def sliceTo (p : Bytes) (lo hi : Int) : Out Bytes :=
  if 0 ≤ lo ∧ lo ≤ hi ∧ hi ≤ p.length then .ok ((p.take hi.toNat).drop lo.toNat) else .panic

/-- A Go decoding function `func f(payload []byte) (v T, n int)`. -/
abbrev GoDec (α : Type) := Bytes → Out (α × Int)

/-- Straight-line decoding code over a fixed payload with a mutable `offset`. -/
def Cur (α : Type) := Bytes → Int → Out (α × Int)

namespace Cur

instance : Monad Cur where
  pure a := fun _ off => .ok (a, off)
  bind m f := fun p off =>
    match m p off with
    | .ok (a, off') => f a p off'
    | .err e => .err e
    | .panic => .panic

theorem bind_def {α β : Type} (m : Cur α) (f : α → Cur β) (p : Bytes) (off : Int) :
    (m >>= f) p off = match m p off with
      | .ok (a, off') => f a p off'
      | .err e => .err e
      | .panic => .panic := rfl

theorem pure_def {α : Type} (a : α) (p : Bytes) (off : Int) :
    (pure a : Cur α) p off = .ok (a, off) := rfl

/-- `v, o := f(payload[offset:]); offset += o` -/
def call {α : Type} (f : GoDec α) : Cur α := fun p off =>
  match sliceFrom p off with
  | .ok s =>
    match f s with
    | .ok (a, n) => .ok (a, off + n)
    | .err e => .err e
    | .panic => .panic
  | .err e => .err e
  | .panic => .panic

/-- Body of a Go decoding function started at `offset := 0`. -/
def run {α : Type} (c : Cur α) : GoDec α := fun p => c p 0

/-- `return ..., err` -/
def fail {α : Type} (e : Err) : Cur α := fun _ _ => .err e

/-- run-time panic -/
def crash {α : Type} : Cur α := fun _ _ => .panic

/-- `offset += n` without looking at the payload -/
def advance (n : Int) : Cur Unit := fun _ off => .ok ((), off + n)

/-- `if c { v = m }` with `v` starting as `d` -/
def cond {α : Type} (c : Prop) [Decidable c] (m : Cur α) (d : α) : Cur α := if c then m else pure d

/-- `payload[offset:]` seen by the code without moving `offset` -/
def peekRest : Cur Bytes := fun p off =>
  match sliceFrom p off with
  | .ok s => .ok (s, off)
  | .err e => .err e
  | .panic => .panic

/-- `len(payload)` -/
def payloadLen : Cur Nat := fun p off => .ok (p.length, off)

/-- `for i := 0; i < n; i++ { xs[i] = c }` -/
def forN {α : Type} : Nat → Cur α → Cur (List α)
  | 0, _ => pure []
  | n + 1, c => do
    let x ← c
    let xs ← forN n c
    pure (x :: xs)

/-- `make([]T, n)` for a signed count followed by the filling loop: a negative count panics. -/
def forInt {α : Type} (n : Int) (c : Cur α) : Cur (List α) :=
  if n < 0 then crash else forN n.toNat c

end Cur

/-- Fixed-width big-endian read of `w` bytes: `binary.BigEndian.UintN(payload)` panics if short. -/
def beGet (w : Nat) : GoDec Nat := fun p =>
  if w ≤ p.length then .ok (beVal (p.take w), (w : Int)) else .panic

/-- `x := uint8(payload[offset]); offset++` -/
def rdU8 : Cur UInt8 := do let n ← Cur.call (beGet 1); pure (UInt8.ofNat n)
/-- `x := binary.BigEndian.Uint16(payload[offset:]); offset += 2` -/
def rdU16 : Cur UInt16 := do let n ← Cur.call (beGet 2); pure (UInt16.ofNat n)
/-- `x := binary.BigEndian.Uint32(payload[offset:]); offset += 4` -/
def rdU32 : Cur UInt32 := do let n ← Cur.call (beGet 4); pure (UInt32.ofNat n)
/-- `x := binary.BigEndian.Uint64(payload[offset:]); offset += 8` -/
def rdU64 : Cur UInt64 := do let n ← Cur.call (beGet 8); pure (UInt64.ofNat n)
/-- `int8(payload[offset])` -/
def rdI8 : Cur Int8 := do let v ← rdU8; pure v.toInt8
/-- `int16(binary.BigEndian.Uint16(...))` -/
def rdI16 : Cur Int16 := do let v ← rdU16; pure v.toInt16
/-- `int32(binary.BigEndian.Uint32(...))` -/
def rdI32 : Cur Int32 := do let v ← rdU32; pure v.toInt32
/-- `int64(binary.BigEndian.Uint64(...))` -/
def rdI64 : Cur Int64 := do let v ← rdU64; pure v.toInt64

/-- `payload[offset:offset+l]; offset += l` -/
def rdBytes (l : Int) : Cur Bytes := fun p off =>
  match sliceTo p off (off + l) with
  | .ok s => .ok (s, off + l)
  | .err e => .err e
  | .panic => .panic

/-- `v, o := binary.Uvarint(payload[offset:]); offset += o` -/
def rdUvarint : Cur Nat := Cur.call (fun s => .ok (uvarint s))
/-- `v, o := binary.Varint(payload[offset:]); offset += o` -/
def rdVarint : Cur Int := Cur.call (fun s => .ok (varint s))

/-! ## Round-trip calculus -/

/-- `f` reads exactly `enc` and yields `a`, whatever follows. -/
def Reads {α : Type} (f : GoDec α) (enc : Bytes) (a : α) : Prop :=
  ∀ rest, f (enc ++ rest) = .ok (a, (enc.length : Int))

/-- The cursor code `c`, standing in front of `enc`, consumes exactly `enc` and yields `a`,
whatever precedes and follows. -/
def CReads {α : Type} (c : Cur α) (enc : Bytes) (a : α) : Prop :=
  ∀ pre rest, c (pre ++ (enc ++ rest)) (pre.length : Int)
    = .ok (a, ((pre.length + enc.length : Nat) : Int))

theorem sliceFrom_append (pre s : Bytes) : sliceFrom (pre ++ s) (pre.length : Int) = .ok s := by
  unfold sliceFrom
  rw [if_pos]
  · simp
  · simp; omega

theorem sliceTo_append (pre mid rest : Bytes) :
    sliceTo (pre ++ (mid ++ rest)) (pre.length : Int) (pre.length + mid.length : Int) = .ok mid := by
  unfold sliceTo
  rw [if_pos]
  · have h : (pre.length + mid.length : Int).toNat = pre.length + mid.length := by omega
    rw [h]
    rw [← List.append_assoc, List.take_left' (by simp)]
    simp
  · simp; omega

theorem CReads.pure {α : Type} (a : α) : CReads (Pure.pure a) [] a := by
  intro pre rest; simp [Cur.pure_def]

theorem CReads.bind {α β : Type} {m : Cur α} {f : α → Cur β} {e1 e2 : Bytes} {a : α} {b : β}
    (h1 : CReads m e1 a) (h2 : CReads (f a) e2 b) : CReads (m >>= f) (e1 ++ e2) b := by
  intro pre rest
  rw [Cur.bind_def]
  have := h1 pre (e2 ++ rest)
  rw [List.append_assoc, this]
  have := h2 (pre ++ e1) rest
  simp only [List.append_assoc, List.length_append] at this ⊢
  rw [this, Nat.add_assoc]

/-- Variant of `CReads.bind` for a final computation without reading. -/
theorem CReads.bind_pure {α β : Type} {m : Cur α} {g : α → β} {e1 : Bytes} {a : α}
    (h1 : CReads m e1 a) : CReads (m >>= fun x => Pure.pure (g x)) e1 (g a) := by
  have := CReads.bind h1 (f := fun x => Pure.pure (g x)) (CReads.pure (g a))
  simpa using this

theorem CReads.cast {α : Type} {c : Cur α} {e e' : Bytes} {a a' : α}
    (h : CReads c e a) (he : e = e') (ha : a = a') : CReads c e' a' := by
  subst he; subst ha; exact h

theorem CReads.call {α : Type} {f : GoDec α} {enc : Bytes} {a : α} (h : Reads f enc a) :
    CReads (Cur.call f) enc a := by
  intro pre rest
  unfold Cur.call
  rw [sliceFrom_append]
  simp only [h rest]
  simp

theorem CReads.run {α : Type} {c : Cur α} {enc : Bytes} {a : α} (h : CReads c enc a) :
    Reads (Cur.run c) enc a := by
  intro rest
  have := h [] rest
  simpa [Cur.run] using this

theorem CReads.forN {α β : Type} {c : Cur β} {enc : α → Bytes} {g : α → β} (xs : List α)
    (h : ∀ x ∈ xs, CReads c (enc x) (g x)) :
    CReads (Cur.forN xs.length c) (xs.flatMap enc) (xs.map g) := by
  induction xs with
  | nil => exact CReads.pure []
  | cons x xs ih =>
    simp only [List.length_cons, Cur.forN, List.flatMap_cons, List.map_cons]
    refine CReads.bind (h x (by simp)) ?_
    exact CReads.bind_pure (ih (fun y hy => h y (by simp [hy])))

theorem CReads.forInt {α β : Type} {c : Cur β} {enc : α → Bytes} {g : α → β} (xs : List α) (n : Int)
    (hn : n = xs.length) (h : ∀ x ∈ xs, CReads c (enc x) (g x)) :
    CReads (Cur.forInt n c) (xs.flatMap enc) (xs.map g) := by
  unfold Cur.forInt
  subst hn
  rw [if_neg (by omega)]
  exact CReads.forN xs h

theorem CReads.cond {α : Type} {c : Prop} [Decidable c] {m : Cur α} {e : Bytes} {a d : α}
    (h : c → CReads m e a) :
    CReads (Cur.cond c m d) (if c then e else []) (if c then a else d) := by
  unfold Cur.cond
  by_cases hc : c
  · simp only [if_pos hc]; exact h hc
  · simp only [if_neg hc]; exact CReads.pure d

theorem CReads.cond' {α : Type} {c c' : Prop} [Decidable c] [Decidable c'] {m : Cur α} {e : Bytes}
    {a d : α} (hcc : c ↔ c') (h : c → CReads m e a) :
    CReads (Cur.cond c m d) (if c' then e else []) (if c' then a else d) := by
  have := CReads.cond (d := d) h
  by_cases hc : c
  · simp only [if_pos hc, if_pos (hcc.1 hc)] at *; exact this
  · simp only [if_neg hc, if_neg (fun x => hc (hcc.2 x))] at *; exact this

theorem reads_beGet (w v : Nat) (hv : v < 256 ^ w) : Reads (beGet w) (beBytes w v) v := by
  intro rest
  unfold beGet
  rw [if_pos (by simp)]
  rw [List.take_left' (by simp), beVal_beBytes, Nat.mod_eq_of_lt hv]
  simp

theorem reads_rdU8 (v : UInt8) : CReads rdU8 [v] v := by
  have h := CReads.bind_pure (g := UInt8.ofNat) (CReads.call (reads_beGet 1 v.toNat v.toNat_lt))
  exact h.cast (by simp [beBytes]) (by simp)

theorem reads_rdU16 (v : UInt16) : CReads rdU16 (be16 v) v := by
  have h := CReads.bind_pure (g := UInt16.ofNat) (CReads.call (reads_beGet 2 v.toNat v.toNat_lt))
  exact h.cast rfl (by simp)

theorem reads_rdU32 (v : UInt32) : CReads rdU32 (be32 v) v := by
  have h := CReads.bind_pure (g := UInt32.ofNat) (CReads.call (reads_beGet 4 v.toNat v.toNat_lt))
  exact h.cast rfl (by simp)

theorem reads_rdU64 (v : UInt64) : CReads rdU64 (be64 v) v := by
  have h := CReads.bind_pure (g := UInt64.ofNat) (CReads.call (reads_beGet 8 v.toNat v.toNat_lt))
  exact h.cast rfl (by simp)

theorem reads_rdI8 (v : Int8) : CReads rdI8 [v.toUInt8] v :=
  (CReads.bind_pure (g := UInt8.toInt8) (reads_rdU8 v.toUInt8)).cast rfl (by simp)
theorem reads_rdI16 (v : Int16) : CReads rdI16 (be16 v.toUInt16) v :=
  (CReads.bind_pure (g := UInt16.toInt16) (reads_rdU16 v.toUInt16)).cast rfl (by simp)
theorem reads_rdI32 (v : Int32) : CReads rdI32 (be32 v.toUInt32) v :=
  (CReads.bind_pure (g := UInt32.toInt32) (reads_rdU32 v.toUInt32)).cast rfl (by simp)
theorem reads_rdI64 (v : Int64) : CReads rdI64 (be64 v.toUInt64) v :=
  (CReads.bind_pure (g := UInt64.toInt64) (reads_rdU64 v.toUInt64)).cast rfl (by simp)

theorem reads_rdBytes (bs : Bytes) (l : Int) (h : l = bs.length) : CReads (rdBytes l) bs bs := by
  intro pre rest
  unfold rdBytes
  subst h
  rw [sliceTo_append]
  simp

theorem reads_rdUvarint (x : Nat) (hx : x < 2 ^ 64) : CReads rdUvarint (putUvarint x) x := by
  apply CReads.call
  intro rest
  simp [uvarint_put x hx]

theorem reads_rdVarint (x : Int) (h : -2 ^ 63 ≤ x ∧ x < 2 ^ 63) :
    CReads rdVarint (putVarint x) x := by
  apply CReads.call
  intro rest
  simp [varint_put x h]

theorem reads_advance (bs : Bytes) (n : Int) (h : n = bs.length) :
    CReads (Cur.advance n) bs () := by
  intro pre rest
  subst h
  simp [Cur.advance]

theorem reads_peekRest_bind {β : Type} {f : Bytes → Cur β} {enc : Bytes} {b : β}
    (h : ∀ pre rest, f (enc ++ rest) (pre ++ (enc ++ rest)) (pre.length : Int)
      = .ok (b, ((pre.length + enc.length : Nat) : Int))) :
    CReads (Cur.peekRest >>= f) enc b := by
  intro pre rest
  rw [Cur.bind_def]
  unfold Cur.peekRest
  rw [sliceFrom_append]
  exact h pre rest

/-! ## Buffer writers -/

/-- A Go buffer `payload := make([]byte, cap)` with `data = payload[:offset]` written so far.
After `copy(payload[offset:], s); offset += len(s)` the offset may exceed `cap`; then only the
first `cap` bytes of `data` are stored and every later use of `payload[offset:]` panics. -/
structure Wr where
  cap : Nat
  data : Bytes
deriving DecidableEq, Repr

/-- Code writing to the buffer at `offset` and advancing `offset`. -/
abbrev Enc := Wr → Out Wr

namespace Enc

/-- `binary.BigEndian.PutUintN(payload[offset:], ..)`, `payload[offset] = b`, `binary.PutUvarint`:
panics if the bytes do not fit.  (`PutUvarint` writes byte by byte before panicking; a panic
discards the buffer, so the partial write is not observable.) -/
def put (bs : Bytes) : Enc := fun w =>
  if w.data.length + bs.length ≤ w.cap then .ok { w with data := w.data ++ bs } else .panic

/-- `offset += copy(payload[offset:], bs)`: truncates to what fits. -/
def cpy (bs : Bytes) : Enc := fun w =>
  if w.data.length ≤ w.cap then .ok { w with data := w.data ++ bs.take (w.cap - w.data.length) }
  else .panic

/-- `copy(payload[offset:], bs); offset += len(bs)`: stores what fits, but advances by all of it. -/
def cpyN (bs : Bytes) : Enc := fun w =>
  if w.data.length ≤ w.cap then .ok { w with data := w.data ++ bs } else .panic

/-- sequential composition -/
def seq (a b : Enc) : Enc := fun w => match a w with
  | .ok w' => b w'
  | .err e => .err e
  | .panic => .panic

/-- no code -/
def nop : Enc := fun w => .ok w

/-- a loop body for each element of a slice -/
def each {α : Type} (f : α → Enc) : List α → Enc
  | [] => nop
  | x :: xs => seq (f x) (each f xs)

/-- statements in order -/
def all : List Enc → Enc
  | [] => nop
  | e :: es => seq e (all es)

end Enc

/-- `e` appends exactly `bs` whenever the remaining room suffices. -/
def Writes (e : Enc) (bs : Bytes) : Prop :=
  ∀ w : Wr, w.data.length + bs.length ≤ w.cap → e w = .ok { w with data := w.data ++ bs }

theorem Writes.put (bs : Bytes) : Writes (Enc.put bs) bs := by
  intro w h; simp [Enc.put, h]

theorem Writes.cpy (bs : Bytes) : Writes (Enc.cpy bs) bs := by
  intro w h
  simp only [Enc.cpy]
  rw [List.take_of_length_le (by omega), if_pos (by omega)]

theorem Writes.cpyN (bs : Bytes) : Writes (Enc.cpyN bs) bs := by
  intro w h
  simp only [Enc.cpyN]
  rw [if_pos (by omega)]

theorem Writes.nop : Writes Enc.nop [] := by
  intro w _; simp [Enc.nop]

theorem Writes.seq {a b : Enc} {x y : Bytes} (ha : Writes a x) (hb : Writes b y) :
    Writes (Enc.seq a b) (x ++ y) := by
  intro w h
  simp only [List.length_append] at h
  simp only [Enc.seq]
  rw [ha w (by omega)]
  simp only
  rw [hb _ (by simp; omega)]
  simp

theorem Writes.each {α : Type} {f : α → Enc} {g : α → Bytes} (xs : List α)
    (h : ∀ x ∈ xs, Writes (f x) (g x)) : Writes (Enc.each f xs) (xs.flatMap g) := by
  induction xs with
  | nil => exact Writes.nop
  | cons x xs ih =>
    simp only [Enc.each, List.flatMap_cons]
    exact Writes.seq (h x (by simp)) (ih (fun y hy => h y (by simp [hy])))

theorem Writes.all_nil : Writes (Enc.all []) [] := Writes.nop

theorem Writes.all_cons {e : Enc} {es : List Enc} {x y : Bytes} (h1 : Writes e x)
    (h2 : Writes (Enc.all es) y) : Writes (Enc.all (e :: es)) (x ++ y) := Writes.seq h1 h2

theorem Writes.cast {e : Enc} {x y : Bytes} (h : Writes e x) (hxy : x = y) : Writes e y := by
  subst hxy; exact h

/-- `if c { ... }` -/
def Enc.when (c : Bool) (e : Enc) : Enc := if c then e else Enc.nop

theorem Writes.when {c : Bool} {e : Enc} {bs : Bytes} (h : c = true → Writes e bs) :
    Writes (Enc.when c e) (if c then bs else []) := by
  cases c with
  | false => exact Writes.nop
  | true => exact h rfl

/-- `payload := make([]byte, cap)`; run the code; return the whole buffer, whose unwritten tail is zero. -/
def encodeFull (cap : Nat) (e : Enc) : Out Bytes :=
  match e { cap := cap, data := [] } with
  | .ok w => .ok ((w.data ++ List.replicate (w.cap - w.data.length) 0).take w.cap)
  | .err x => .err x
  | .panic => .panic

/-- As `encodeFull`, returning `payload[:offset]` -/
def encodeCut (cap : Nat) (e : Enc) : Out Bytes :=
  match e { cap := cap, data := [] } with
  | .ok w => if w.data.length ≤ w.cap then .ok w.data else .panic
  | .err x => .err x
  | .panic => .panic

/-- `binary.BigEndian.PutUint32(payload, v)` applied to an already written buffer (deferred length). -/
def patch32 (v : UInt32) (bs : Bytes) : Out Bytes :=
  if 4 ≤ bs.length then .ok (be32 v ++ bs.drop 4) else .panic

theorem encodeFull_of_writes {cap : Nat} {e : Enc} {bs : Bytes} (h : Writes e bs)
    (hlen : bs.length ≤ cap) :
    encodeFull cap e = .ok (bs ++ List.replicate (cap - bs.length) 0) := by
  unfold encodeFull
  rw [h _ (by simpa using hlen)]
  simp only [List.nil_append]
  rw [List.take_of_length_le (by simp; omega)]

theorem encodeFull_exact {cap : Nat} {e : Enc} {bs : Bytes} (h : Writes e bs)
    (hlen : bs.length = cap) : encodeFull cap e = .ok bs := by
  rw [encodeFull_of_writes h (by omega)]; simp [hlen]

theorem encodeCut_of_writes {cap : Nat} {e : Enc} {bs : Bytes} (h : Writes e bs)
    (hlen : bs.length ≤ cap) : encodeCut cap e = .ok bs := by
  unfold encodeCut
  rw [h _ (by simpa using hlen)]
  simp [hlen]

end Healer
