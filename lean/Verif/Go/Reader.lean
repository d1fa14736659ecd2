import Verif.Go.Cursor

/-!
# Reading from a network connection

A connection delivers its bytes in chunks chosen by the network: `Read(p)` returns what is left of
the current chunk, at most `len(p)` bytes.  Every sequence of read results of a TCP connection is
obtained by some choice of chunks.  `io.LimitedReader` on top of it stops after `limit` bytes.
-/

namespace Healer

/-- `io.LimitedReader{R: conn, N: limit}` -/
structure Rdr where
  /-- data still to come, as the network will hand it out -/
  chunks : List Bytes
  /-- `N` of the limited reader -/
  limit : Nat
  /-- error of the connection when no data is left (closed: `io.EOF`; timeout, reset: other) -/
  fin : Err := .eof
deriving DecidableEq, Repr

/-- Drop empty chunks: a connection never returns zero bytes without an error. -/
def dropEmpty : List Bytes → List Bytes
  | [] => []
  | [] :: cs => dropEmpty cs
  | c :: cs => c :: cs

/-- `n, err := r.Read(make([]byte, k))` -/
def Rdr.read1 (k : Nat) (r : Rdr) : Bytes × Option Err × Rdr :=
  if r.limit = 0 then ([], some .eof, r)
  else
    let m := min k r.limit
    if m = 0 then ([], none, r)
    else match dropEmpty r.chunks with
      | [] => ([], some r.fin, { r with chunks := [] })
      | c :: cs =>
        (c.take m, none, { r with chunks := c.drop m :: cs, limit := r.limit - (c.take m).length })

/-- Repeat `Read` until `n` bytes have arrived or an error occurs.  Every `Read` returns at least one
byte or an error, so `fuel = n` rounds suffice. -/
def Rdr.readLoop : Nat → Nat → Rdr → Bytes × Option Err × Rdr
  | 0, _, r => ([], none, r)
  | fuel + 1, n, r =>
    if n = 0 then ([], none, r)
    else match r.read1 n with
      | (got, some e, r') => (got, some e, r')
      | (got, none, r') =>
        let (got', e, r'') := Rdr.readLoop fuel (n - got.length) r'
        (got ++ got', e, r'')

/-- `io.ReadFull(r, make([]byte, n))`: `io.EOF` if nothing was read, `io.ErrUnexpectedEOF` if the end
came after some bytes, other errors as they are. -/
def Rdr.readFull (n : Nat) (r : Rdr) : Bytes × Option Err × Rdr :=
  match Rdr.readLoop n n r with
  | (got, some .eof, r') => (got, some (if got = [] then .eof else .unexpectedEof), r')
  | res => res

/-- `io.ReadAll(io.LimitReader(r, n))`: the end of the data is not an error.  The sizes of the
individual reads (growing buffer of `io.ReadAll`) are not modelled; they do not influence what
is read in total. -/
def Rdr.readUpTo (n : Nat) (r : Rdr) : Bytes × Option Err × Rdr :=
  match Rdr.readLoop n n r with
  | (got, some .eof, r') => (got, none, r')
  | res => res

/-- `io.Copy(io.Discard, r)` -/
def Rdr.drain (r : Rdr) : Rdr := (Rdr.readLoop r.limit r.limit r).2.2

/-! ## What is read depends only on the bytes -/

/-- The bytes still to come, however they are chunked. -/
def Rdr.flat (r : Rdr) : Bytes := r.chunks.flatten

theorem dropEmpty_flatten (cs : List Bytes) : (dropEmpty cs).flatten = cs.flatten := by
  induction cs with
  | nil => rfl
  | cons c cs ih => cases c <;> simp [dropEmpty, ih]

theorem dropEmpty_head {cs : List Bytes} {c : Bytes} {cs' : List Bytes} (h : dropEmpty cs = c :: cs') : c ≠ [] := by
  induction cs with
  | nil => simp [dropEmpty] at h
  | cons x xs ih =>
    cases x with
    | nil => exact ih h
    | cons y ys => simp [dropEmpty] at h; rw [← h.1]; simp

theorem readLoop_spec (fuel n : Nat) (hf : n ≤ fuel) (r : Rdr) :
    let avail := r.flat.take r.limit
    ∃ r', Rdr.readLoop fuel n r
        = (avail.take n, (if n ≤ avail.length then none else some (if r.limit ≤ r.flat.length then .eof else r.fin)), r') ∧
      r'.flat = r.flat.drop (min n avail.length) ∧ r'.limit = r.limit - min n avail.length ∧ r'.fin = r.fin := by
  induction fuel generalizing n r with
  | zero =>
    have : n = 0 := by omega
    subst this
    exact ⟨r, by simp [Rdr.readLoop], by simp, by simp, rfl⟩
  | succ fuel ih =>
    intro avail
    unfold Rdr.readLoop
    by_cases hn : n = 0
    · subst hn
      exact ⟨r, by simp, by simp, by simp, rfl⟩
    rw [if_neg hn]
    unfold Rdr.read1
    by_cases hl : r.limit = 0
    · rw [if_pos hl]
      refine ⟨r, ?_, ?_, ?_, rfl⟩
      · simp [avail, hl, hn]
      · simp [avail, hl]
      · simp [avail, hl]
    rw [if_neg hl]
    have hm : min n r.limit ≠ 0 := by omega
    simp only [hm, if_false]
    have hfl := dropEmpty_flatten r.chunks
    cases hd : dropEmpty r.chunks with
    | nil =>
      rw [hd] at hfl
      have hflat : r.flat = [] := by unfold Rdr.flat; rw [← hfl]; rfl
      refine ⟨{ r with chunks := [] }, ?_, ?_, ?_, rfl⟩
      · simp [avail, hflat, hn]; omega
      · simp [hflat]; rfl
      · simp [avail, hflat]
    | cons c cs =>
      rw [hd] at hfl
      have hc := dropEmpty_head hd
      have hcpos : 0 < c.length := List.length_pos_iff.2 hc
      have hflat : r.flat = c ++ cs.flatten := by unfold Rdr.flat; rw [← hfl]; rfl
      simp only
      generalize hg : c.take (min n r.limit) = got
      have hgl : got.length = min (min n r.limit) c.length := by rw [← hg]; simp
      have hgpos : 0 < got.length := by omega
      have hgn : got.length ≤ n := by omega
      have hgf : r.flat = got ++ (c.drop (min n r.limit) ++ cs.flatten) := by
        rw [hflat, ← hg, ← List.append_assoc, List.take_append_drop]
      obtain ⟨r', h1, h2, h3, h4⟩ := ih (n - got.length) (by omega)
        { r with chunks := c.drop (min n r.limit) :: cs, limit := r.limit - got.length }
      have hf2 : ({ r with chunks := c.drop (min n r.limit) :: cs, limit := r.limit - got.length } : Rdr).flat
          = c.drop (min n r.limit) ++ cs.flatten := rfl
      simp only [hf2] at h1 h2 h3 h4
      have hav : avail = got ++ (c.drop (min n r.limit) ++ cs.flatten).take (r.limit - got.length) := by
        simp only [avail]
        rw [hgf, List.take_append, List.take_of_length_le (by omega)]
      have hfl2 : r.flat.length = got.length + (c.drop (min n r.limit) ++ cs.flatten).length := by
        rw [hgf, List.length_append]
      generalize hR : c.drop (min n r.limit) ++ cs.flatten = R at *
      refine ⟨r', ?_, ?_, ?_, h4⟩
      · rw [h1]
        simp only [Prod.mk.injEq, and_true]
        refine ⟨?_, ?_⟩
        · rw [hav, List.take_append, List.take_of_length_le hgn]
        · rw [hav, List.length_append]
          have e1 : (n - got.length ≤ (R.take (r.limit - got.length)).length) ↔
              (n ≤ got.length + (R.take (r.limit - got.length)).length) := by omega
          have e2 : (r.limit - got.length ≤ R.length) ↔ (r.limit ≤ r.flat.length) := by omega
          simp only [e1, e2]
      · rw [h2, hav, hgf, List.length_append]
        have : min n (got.length + (R.take (r.limit - got.length)).length)
            = got.length + min (n - got.length) (R.take (r.limit - got.length)).length := by omega
        rw [this, List.drop_append]
        simp
      · rw [h3, hav, List.length_append]
        omega

/-- The connection has at least `n` of the bytes allowed. -/
theorem readFull_ok (n : Nat) (r : Rdr) (h : n ≤ (r.flat.take r.limit).length) :
    ∃ r', r.readFull n = (r.flat.take n, none, r') ∧ r'.flat = r.flat.drop n ∧ r'.limit = r.limit - n ∧
      r'.fin = r.fin := by
  obtain ⟨r', h1, h2, h3, h4⟩ := readLoop_spec n n (Nat.le_refl n) r
  have hl : n ≤ r.limit := by rw [List.length_take] at h; omega
  rw [if_pos h, List.take_take, Nat.min_eq_left hl] at h1
  rw [Nat.min_eq_left h] at h2 h3
  refine ⟨r', ?_, h2, h3, h4⟩
  unfold Rdr.readFull
  rw [h1]

/-- The data ends before `n` bytes. -/
theorem readFull_short (n : Nat) (r : Rdr) (h : (r.flat.take r.limit).length < n) :
    ∃ r', r.readFull n = (r.flat.take r.limit,
        some (if r.limit ≤ r.flat.length ∨ r.fin = .eof then
          (if r.flat.take r.limit = [] then .eof else .unexpectedEof) else r.fin), r') ∧
      r'.flat = r.flat.drop r.limit ∧ r'.limit = r.limit - (r.flat.take r.limit).length ∧ r'.fin = r.fin := by
  obtain ⟨r', h1, h2, h3, h4⟩ := readLoop_spec n n (Nat.le_refl n) r
  rw [if_neg (by omega), List.take_of_length_le (by omega : (r.flat.take r.limit).length ≤ n)] at h1
  rw [Nat.min_eq_right (by omega)] at h2 h3
  refine ⟨r', ?_, ?_, h3, h4⟩
  · unfold Rdr.readFull
    rw [h1]
    by_cases hl : r.limit ≤ r.flat.length
    · simp [hl]
    · by_cases hf : r.fin = .eof
      · simp [hl, hf]
      · simp only [hl, if_false, hf, or_self]
        split
        · rename_i heq; simp only [Prod.mk.injEq, Option.some.injEq] at heq; exact absurd heq.2.1 hf
        · rfl
  · rw [h2, List.length_take]
    by_cases hl : r.limit ≤ r.flat.length
    · rw [Nat.min_eq_left hl]
    · rw [Nat.min_eq_right (by omega), List.drop_eq_nil_of_le (by omega), List.drop_eq_nil_of_le (by omega)]

theorem readUpTo_spec (n : Nat) (r : Rdr) :
    ∃ r', r.readUpTo n = ((r.flat.take r.limit).take n,
        (if n ≤ (r.flat.take r.limit).length ∨ r.limit ≤ r.flat.length ∨ r.fin = .eof then none else some r.fin), r') ∧
      r'.flat = r.flat.drop (min n (r.flat.take r.limit).length) ∧
      r'.limit = r.limit - min n (r.flat.take r.limit).length ∧ r'.fin = r.fin := by
  obtain ⟨r', h1, h2, h3, h4⟩ := readLoop_spec n n (Nat.le_refl n) r
  refine ⟨r', ?_, h2, h3, h4⟩
  unfold Rdr.readUpTo
  rw [h1]
  by_cases hn : n ≤ (r.flat.take r.limit).length
  · simp only [hn, if_true, true_or]
  · by_cases hl : r.limit ≤ r.flat.length
    · simp only [hn, hl, if_false, if_true, true_or, or_true]
    · by_cases hf : r.fin = .eof
      · simp only [hn, hl, hf, if_false, if_true, or_true]
      · simp only [hn, hl, if_false, hf, or_self]
        split
        · rename_i heq; simp only [Prod.mk.injEq, Option.some.injEq] at heq; exact absurd heq.2.1 hf
        · rfl

/-- Draining reads exactly to the limit, or to the end of the connection. -/
theorem drain_spec (r : Rdr) :
    (r.drain.limit = 0 ∨ r.drain.flat = []) ∧ r.drain.flat = r.flat.drop r.limit ∧
      r.drain.limit = r.limit - (r.flat.take r.limit).length := by
  obtain ⟨r', h1, h2, h3, h4⟩ := readLoop_spec r.limit r.limit (Nat.le_refl _) r
  unfold Rdr.drain
  rw [h1]
  simp only
  have hl : (r.flat.take r.limit).length = min r.limit r.flat.length := by simp
  rw [hl] at h2 h3 ⊢
  have h2' : r'.flat = r.flat.drop r.limit := by
    rw [h2]
    by_cases h : r.limit ≤ r.flat.length
    · congr 1; omega
    · rw [List.drop_eq_nil_of_le (by omega), List.drop_eq_nil_of_le (by omega)]
  refine ⟨?_, h2', by rw [h3]; omega⟩
  by_cases h : r.limit ≤ r.flat.length
  · left; omega
  · right; rw [h2']; exact List.drop_eq_nil_of_le (by omega)

/-- A single `Read` with enough data in the first chunk. -/
theorem read1_head (k : Nat) (c : Bytes) (cs : List Bytes) (lim : Nat) (fin : Err) (hk : 0 < k) (hc : k ≤ c.length)
    (hl : k ≤ lim) :
    Rdr.read1 k { chunks := c :: cs, limit := lim, fin := fin }
      = (c.take k, none, { chunks := c.drop k :: cs, limit := lim - k, fin := fin }) := by
  unfold Rdr.read1
  rw [if_neg (by simp only; omega)]
  have hm : min k lim = k := by omega
  simp only [hm]
  rw [if_neg (by omega)]
  obtain ⟨x, xs, rfl⟩ : ∃ x xs, c = x :: xs := by
    cases c with
    | nil => simp at hc; omega
    | cons x xs => exact ⟨x, xs, rfl⟩
  simp only [dropEmpty, List.length_take]
  rw [Nat.min_eq_left hc]

/-- In any case a single `Read` takes some bytes off the front, at most `k`. -/
theorem read1_flat (k : Nat) (r : Rdr) :
    ∃ got e r', r.read1 k = (got, e, r') ∧ r.flat = got ++ r'.flat ∧ got.length ≤ k ∧ got.length ≤ r.limit ∧
      r'.limit = r.limit - got.length ∧ r'.fin = r.fin ∧ (e ≠ none → got = [] ∧ (r.limit = 0 ∨ r'.flat = [])) := by
  unfold Rdr.read1
  by_cases hl : r.limit = 0
  · rw [if_pos hl]
    exact ⟨_, _, _, rfl, by simp, by simp, by simp, by simp, rfl, fun _ => ⟨rfl, Or.inl hl⟩⟩
  rw [if_neg hl]
  by_cases hm : min k r.limit = 0
  · simp only [hm, if_true]
    exact ⟨_, _, _, rfl, by simp, by simp, by simp, by simp, rfl, fun h => absurd rfl h⟩
  simp only [hm, if_false]
  have hfl := dropEmpty_flatten r.chunks
  cases hd : dropEmpty r.chunks with
  | nil =>
    rw [hd] at hfl
    exact ⟨_, _, _, rfl, by simp [Rdr.flat, ← hfl], by simp, by simp, by simp, rfl, fun _ => ⟨rfl, Or.inr rfl⟩⟩
  | cons c cs =>
    rw [hd] at hfl
    refine ⟨_, _, _, rfl, ?_, by simp; omega, by simp; omega, rfl, rfl, fun h => absurd rfl h⟩
    simp only [Rdr.flat]
    rw [← hfl]
    simp [← List.append_assoc]

end Healer
