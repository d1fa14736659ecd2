import Verif.Model.Fetch
import Verif.Lemmas.Message

/-!
# Helper lemmas for the fetch decoder: reading
-/

namespace Healer

/-! ## Truncated records -/

theorem uvarintLoop_short (x : Nat) (k i acc : Nat) (hk : k < (putUvarint x).length)
    (hx : x * 128 ^ i < 2 ^ 64) (hpos : 1 ≤ x ∨ i ≤ 9) :
    uvarintLoop ((putUvarint x).take k) i acc = (0, 0) := by
  induction x using Nat.strongRecOn generalizing i acc k with
  | _ x ih =>
    have hi : i ≤ 9 := by
      rcases hpos with h | h
      · apply Nat.le_of_not_lt
        intro hlt
        have h1 : 128 ^ 10 ≤ 128 ^ i := Nat.pow_le_pow_right (by omega) hlt
        have h3 : 1 * 128 ^ i ≤ x * 128 ^ i := Nat.mul_le_mul_right _ h
        have h4 : (128:Nat) ^ 10 = 2 ^ 70 := by decide
        omega
      · exact h
    cases k with
    | zero => simp [uvarintLoop]
    | succ k =>
      rw [putUvarint_unfold] at hk ⊢
      split at hk
      · simp at hk
      · rename_i hge
        rw [if_neg hge, List.take_succ_cons]
        have hb : (UInt8.ofNat (x % 128 + 128)).toNat = x % 128 + 128 := by
          rw [UInt8.toNat_ofNat']; omega
        simp only [uvarintLoop, hb]
        rw [if_neg (by omega), if_neg (by omega)]
        have hmul : x / 128 * 128 ^ (i + 1) ≤ x * 128 ^ i := by
          rw [Nat.pow_succ, Nat.mul_comm (128 ^ i) 128, ← Nat.mul_assoc]
          exact Nat.mul_le_mul_right _ (Nat.div_mul_le_self x 128)
        exact ih (x / 128) (by omega) k (i + 1) _ (by simpa using hk) (by omega) (Or.inl (by omega))

/-- `binary.Varint` of a varint cut short gives `0, 0`. -/
theorem varint_short (x : Int) (h : -2 ^ 63 ≤ x ∧ x < 2 ^ 63) (k : Nat) (hk : k < (Kafka.varint x).length) :
    varint ((Kafka.varint x).take k) = (0, 0) := by
  rw [← putVarint_eq] at hk ⊢
  unfold putVarint at hk ⊢
  unfold varint uvarint
  rw [uvarintLoop_short (zigzag x) k 0 0 hk (by unfold zigzag; split <;> omega) (Or.inr (by omega))]
  rfl

/-- A record cut anywhere before its end is recognised as incomplete. -/
theorem decodeToRecord_short (r : Kafka.Record) (hr : RecordFits r) (k : Nat) (hk : k < (Kafka.record r).length) :
    decodeToRecord ((Kafka.record r).take k) = .err .uncompleteRecord := by
  have hsz := hr.size
  unfold decodeToRecord Cur.run
  rw [Cur.bind_def]
  unfold Kafka.record at hk ⊢
  by_cases hv : k < (Kafka.varint ((Kafka.recordBody r).length : Int)).length
  · rw [List.take_append_of_le_length (by omega)]
    unfold rdVarint Cur.call
    rw [show sliceFrom ((Kafka.varint ((Kafka.recordBody r).length : Int)).take k) 0 =
      .ok ((Kafka.varint ((Kafka.recordBody r).length : Int)).take k) from sliceFrom_append [] _]
    simp only
    rw [varint_short _ (by omega) k hv]
    rfl
  · rw [List.take_append, List.take_of_length_le (by omega)]
    have h1 := creads_varint ((Kafka.recordBody r).length : Int) (by omega) []
      ((Kafka.recordBody r).take (k - (Kafka.varint ((Kafka.recordBody r).length : Int)).length))
    simp only [List.nil_append, List.length_nil, Nat.zero_add] at h1
    rw [show ((0 : Nat) : Int) = 0 from rfl] at h1
    rw [h1]
    have hpos := recordBody_pos r
    simp only
    rw [if_neg (by omega), Cur.bind_def]
    unfold Cur.peekRest
    rw [sliceFrom_append]
    simp only
    rw [if_pos]
    · rfl
    · rw [List.length_append] at hk
      rw [List.length_take]
      omega

/-! ## Reading, in terms of the bytes available -/

/-- The bytes the decoder may still read. -/
def SD.avail (s : SD) : Bytes := s.rd.flat.take s.rd.limit

/-- The connection delivers the whole response. -/
def SD.Whole (s : SD) : Prop := s.rd.limit ≤ s.rd.flat.length

theorem SD.Whole.length {s : SD} (h : s.Whole) : s.avail.length = s.rd.limit := by
  unfold SD.avail; rw [List.length_take]; unfold SD.Whole at h; omega

/-- The state after reading `n` bytes: nothing else changes, and the reader moved by `n`. -/
structure Adv (n : Nat) (s s' : SD) : Prop where
  avail : s'.avail = s.avail.drop n
  limit : s'.rd.limit = s.rd.limit - n
  flat : s'.rd.flat = s.rd.flat.drop n
  fin : s'.rd.fin = s.rd.fin
  whole : s.Whole → s'.Whole
  offset : s'.offset = s.offset + n
  hasOne : s'.hasOne = s.hasOne
  delivered : s'.delivered = s.delivered

theorem Adv.of (n : Nat) (s : SD) (rd' : Rdr) (hn : n ≤ s.avail.length) (h1 : rd'.flat = s.rd.flat.drop n)
    (h2 : rd'.limit = s.rd.limit - n) (h3 : rd'.fin = s.rd.fin) :
    Adv n s { s with rd := rd', offset := s.offset + n } := by
  have hn' : n ≤ s.rd.limit ∧ n ≤ s.rd.flat.length := by
    unfold SD.avail at hn; rw [List.length_take] at hn; omega
  refine ⟨?_, h2, h1, h3, ?_, rfl, rfl, rfl⟩
  · unfold SD.avail
    simp only [h1, h2]
    rw [List.drop_take]
  · unfold SD.Whole
    intro hw
    simp only [h1, h2, List.length_drop]
    omega

theorem fetchRead_ok (n : Nat) (s : SD) (h : n ≤ s.avail.length) :
    ∃ s', fetchRead n s = .ok (s.avail.take n, none) s' ∧ Adv n s s' := by
  obtain ⟨rd', h1, h2, h3, h4⟩ := readFull_ok n s.rd h
  unfold fetchRead
  rw [h1]
  have hn' : n ≤ s.rd.limit ∧ n ≤ s.rd.flat.length := by
    unfold SD.avail at h; rw [List.length_take] at h; omega
  have hl : (s.rd.flat.take n).length = n := by rw [List.length_take]; omega
  refine ⟨_, ?_, Adv.of n s rd' h h2 h3 h4⟩
  simp only [SD.avail, List.take_take, Nat.min_eq_left hn'.1, hl]

theorem fetchRead_short (n : Nat) (s : SD) (hw : s.Whole) (h : s.avail.length < n) :
    ∃ s', fetchRead n s = .ok (s.avail, some (if s.avail = [] then .eof else .unexpectedEof)) s' ∧
      Adv s.avail.length s s' := by
  obtain ⟨rd', h1, h2, h3, h4⟩ := readFull_short n s.rd h
  unfold fetchRead
  rw [h1]
  refine ⟨_, ?_, Adv.of s.avail.length s rd' (Nat.le_refl _) ?_ h3 h4⟩
  · simp only [SD.avail]
    rw [if_pos (Or.inl (show s.rd.limit ≤ s.rd.flat.length from hw))]
    rfl
  · rw [h2, hw.length]

theorem fetchReadUpTo_ok (n : Nat) (s : SD) (h : n ≤ s.avail.length ∨ s.Whole) :
    ∃ s', fetchReadUpTo n s = .ok (s.avail.take n, none) s' ∧ Adv (min n s.avail.length) s s' := by
  obtain ⟨rd', h1, h2, h3, h4⟩ := readUpTo_spec n s.rd
  unfold fetchReadUpTo
  rw [h1]
  refine ⟨_, ?_, Adv.of (min n s.avail.length) s rd' (by omega) h2 h3 h4⟩
  rw [if_pos (by rcases h with h | h; exact Or.inl h; exact Or.inr (Or.inl h))]
  simp only [SD.avail, List.length_take]

/-! ## Fields at fixed positions -/

theorem beAt_append (w off : Nat) (pre field rest : Bytes) (hp : pre.length = off) (hf : field.length = w) :
    beAt w off (pre ++ (field ++ rest)) = beVal field := by
  unfold beAt
  rw [List.drop_left' hp, List.take_left' hf]

theorem beVal_be (w v : Nat) : beVal (Kafka.be w v) = v % 256 ^ w := by
  rw [← beBytes_eq, beVal_beBytes]

theorem beVal_int16 (v : Int) : beVal (Kafka.int16 v) = (v % 2 ^ 16).toNat := by
  unfold Kafka.int16
  rw [beVal_be]
  have : (v % 2 ^ 16).toNat < 256 ^ 2 := by omega
  exact Nat.mod_eq_of_lt this

theorem beVal_int32 (v : Int) : beVal (Kafka.int32 v) = (v % 2 ^ 32).toNat := by
  unfold Kafka.int32
  rw [beVal_be]
  have : (v % 2 ^ 32).toNat < 256 ^ 4 := by omega
  exact Nat.mod_eq_of_lt this

theorem beVal_int64 (v : Int) : beVal (Kafka.int64 v) = (v % 2 ^ 64).toNat := by
  unfold Kafka.int64
  rw [beVal_be]
  have : (v % 2 ^ 64).toNat < 256 ^ 8 := by omega
  exact Nat.mod_eq_of_lt this

theorem int64_ofEmod (v : Int) : (UInt64.ofNat (v % 2 ^ 64).toNat).toInt64 = Int64.ofInt v := by
  apply Int64.toBitVec_inj.1
  apply BitVec.eq_of_toNat_eq
  simp [Int64.toBitVec_ofInt, BitVec.toNat_ofInt]
  omega

theorem uint64_ofEmod (v : Int) : UInt64.ofNat (v % 2 ^ 64).toNat = (Int64.ofInt v).toUInt64 := by
  apply UInt64.toBitVec_inj.1
  apply BitVec.eq_of_toNat_eq
  simp [BitVec.toNat_ofInt]
  omega

theorem int32_ofEmod (v : Int) : (UInt32.ofNat (v % 2 ^ 32).toNat).toInt32 = Int32.ofInt v := by
  apply Int32.toBitVec_inj.1
  apply BitVec.eq_of_toNat_eq
  simp [BitVec.toNat_ofInt]
  omega

theorem int16_ofEmod (v : Int) : (UInt16.ofNat (v % 2 ^ 16).toNat).toInt16 = Int16.ofInt v := by
  apply Int16.toBitVec_inj.1
  apply BitVec.eq_of_toNat_eq
  simp [BitVec.toNat_ofInt]
  omega

end Healer
