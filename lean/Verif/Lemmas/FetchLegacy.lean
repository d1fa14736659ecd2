import Verif.Lemmas.FetchSeen
import Verif.Lemmas.Message

/-!
# Helper lemmas for the fetch decoder: messages of the old formats
-/

namespace Healer

/-- Reading what lies at the front of the first chunk. -/
theorem fetchRead_chunk (pre : Bytes) (n : Nat) (hn : pre.length = n) (s : SD) (c : Bytes) (cs : List Bytes)
    (h : s.rd.chunks = (pre ++ c) :: cs) (hl : n ≤ s.rd.limit) :
    fetchRead n s = .ok (pre, none) (s.skip pre c cs) := by
  have hx := (freads_rdExact pre n hn).all s c cs h (by omega)
  have hw := fetchRead_ok n s (by
    unfold SD.avail Rdr.flat
    rw [h]
    simp only [List.flatten_cons, List.length_take, List.length_append]
    omega)
  obtain ⟨s', h1, _⟩ := hw
  unfold rdExact at hx
  rw [FM.bind_def, h1] at hx
  simp only [FM.pure_def, Res.ok.injEq] at hx
  rw [h1, hx.1, hx.2]

/-- One `Read` of at least what is left of the first chunk, or of the response. -/
theorem fetchRead1_chunk (got c : Bytes) (n : Nat) (s : SD) (cs : List Bytes) (hpos : got ≠ [])
    (h : s.rd.chunks = (got ++ c) :: cs) (hn : got.length ≤ n) (hl : got.length ≤ s.rd.limit)
    (hend : got.length = n ∨ got.length = s.rd.limit ∨ c = []) :
    fetchRead1 n s = .ok (got, none) (s.skip got c cs) := by
  have hp : 0 < got.length := List.length_pos_iff.2 hpos
  obtain ⟨⟨ch, l, f⟩, o, ho, d⟩ := s
  simp only at h hl hend
  subst h
  unfold fetchRead1 Rdr.read1
  simp only
  rw [if_neg (by omega), if_neg (by omega)]
  obtain ⟨x, xs, rfl⟩ : ∃ x xs, got = x :: xs := by
    cases got with
    | nil => exact absurd rfl hpos
    | cons x xs => exact ⟨x, xs, rfl⟩
  have ht : (x :: xs ++ c).take (min n l) = x :: xs ∧ (x :: xs ++ c).drop (min n l) = c := by
    rcases hend with he | he | he
    · rw [show min n l = (x :: xs).length by omega]
      exact ⟨List.take_left, List.drop_left⟩
    · rw [show min n l = (x :: xs).length by omega]
      exact ⟨List.take_left, List.drop_left⟩
    · subst he
      rw [List.append_nil]
      exact ⟨List.take_of_length_le (by omega), List.drop_of_length_le (by omega)⟩
  have hd : dropEmpty ((x :: xs ++ c) :: cs) = (x :: xs ++ c) :: cs := rfl
  rw [hd]
  simp only [ht]
  rfl

/-- Nothing is left of the response. -/
theorem fetchRead_end (n : Nat) (hn : 0 < n) (s : SD) (h : s.rd.limit = 0) : fetchRead n s = .ok ([], some .eof) s := by
  obtain ⟨⟨ch, l, f⟩, o, ho, d⟩ := s
  simp only at h
  subst h
  obtain ⟨k, rfl⟩ : ∃ k, n = k + 1 := ⟨n - 1, by omega⟩
  unfold fetchRead Rdr.readFull Rdr.readLoop Rdr.read1
  simp

theorem fetchRead1_end (n : Nat) (s : SD) (h : s.rd.limit = 0) : fetchRead1 n s = .ok ([], some .eof) s := by
  obtain ⟨⟨ch, l, f⟩, o, ho, d⟩ := s
  simp only at h
  subst h
  unfold fetchRead1 Rdr.read1
  simp

/-- Less than asked for is left of the response. -/
theorem fetchRead_less (got c : Bytes) (n : Nat) (s : SD) (cs : List Bytes) (hpos : got ≠ [])
    (h : s.rd.chunks = (got ++ c) :: cs) (hn : got.length < n) (hl : s.rd.limit = got.length) :
    fetchRead n s = .ok (got, some .unexpectedEof) (s.skip got c cs) := by
  have hp : 0 < got.length := List.length_pos_iff.2 hpos
  obtain ⟨k, rfl⟩ : ∃ k, n = k + 1 := ⟨n - 1, by omega⟩
  have h1 := fetchRead1_chunk got c (k + 1) s cs hpos h (by omega) (by omega) (Or.inr (Or.inl hl.symm))
  obtain ⟨⟨ch, l, f⟩, o, ho, d⟩ := s
  simp only at h hl
  subst h
  subst hl
  unfold fetchRead1 at h1
  unfold fetchRead Rdr.readFull
  rw [Rdr.readLoop, if_neg (by omega)]
  generalize Rdr.read1 (k + 1) ⟨(got ++ c) :: cs, got.length, f⟩ = r at h1 ⊢
  obtain ⟨g, e, r'⟩ := r
  simp only [Res.ok.injEq, Prod.mk.injEq, SD.skip, SD.mk.injEq, Nat.sub_self] at h1
  obtain ⟨⟨rfl, rfl⟩, rfl, _⟩ := h1
  obtain ⟨j, hj⟩ : ∃ j, k = j + 1 := ⟨k - 1, by omega⟩
  have hrest : Rdr.readLoop k (k + 1 - g.length) ⟨c :: cs, 0, f⟩ = ([], some .eof, ⟨c :: cs, 0, f⟩) := by
    rw [hj, Rdr.readLoop, if_neg (by omega)]
    unfold Rdr.read1
    simp
  simp only [hrest, List.append_nil, if_neg hpos, SD.skip, Nat.sub_self]

/-! ## One message -/

/-- A message of format 0 or 1 that is not compressed and whose fields fit the wire. -/
structure OldFits (m : Kafka.LegacyMessage) : Prop where
  fits : LegacyFits m
  format : m.magic = 0 ∨ m.magic = 1
  plain : m.attributes % 8 = 0
  time : -2 ^ 63 ≤ m.timestamp ∧ m.timestamp < 2 ^ 63
  size : (Kafka.legacyMessage m).length < 2 ^ 31

/-- The first twelve bytes: offset and size. -/
def oldLead (m : Kafka.LegacyMessage) : Bytes := Kafka.int64 m.offset ++ Kafka.int32 ((Kafka.legacyBody m).length + 4)

/-- What follows the first twelve bytes. -/
def oldMain (m : Kafka.LegacyMessage) : Bytes := Kafka.int32 (Kafka.crc32 (Kafka.legacyBody m)).toNat ++ Kafka.legacyBody m

/-- The body after the format number. -/
def oldTail (m : Kafka.LegacyMessage) : Bytes :=
  Kafka.int8 m.attributes ++ (if m.magic = 1 then Kafka.int64 m.timestamp else []) ++
    Kafka.nullableBytes m.key ++ Kafka.nullableBytes m.value

/-- The first seventeen bytes. -/
def oldHead (m : Kafka.LegacyMessage) : Bytes :=
  oldLead m ++ (Kafka.int32 (Kafka.crc32 (Kafka.legacyBody m)).toNat ++ Kafka.int8 m.magic)

theorem old_lead_main (m : Kafka.LegacyMessage) : Kafka.legacyMessage m = oldLead m ++ oldMain m := by
  unfold Kafka.legacyMessage oldLead oldMain
  simp only [List.append_assoc]

theorem old_head_tail (m : Kafka.LegacyMessage) : Kafka.legacyMessage m = oldHead m ++ oldTail m := by
  have : Kafka.legacyBody m = Kafka.int8 m.magic ++ oldTail m := by
    unfold Kafka.legacyBody oldTail
    simp only [List.append_assoc]
  rw [old_lead_main]
  unfold oldMain oldHead
  rw [List.append_assoc, List.append_assoc, ← this]

theorem oldLead_length (m : Kafka.LegacyMessage) : (oldLead m).length = 12 := by simp [oldLead]

theorem oldHead_length (m : Kafka.LegacyMessage) : (oldHead m).length = 17 := by simp [oldHead, oldLead]

theorem oldMain_length (m : Kafka.LegacyMessage) : (oldMain m).length = (Kafka.legacyBody m).length + 4 := by
  simp [oldMain]; omega

theorem oldTail_length (m : Kafka.LegacyMessage) : (oldTail m).length + 1 = (Kafka.legacyBody m).length := by
  unfold oldTail Kafka.legacyBody
  have h8 : ∀ v, (Kafka.int8 v).length = 1 := by intro v; simp
  simp only [List.length_append, h8]
  omega

theorem nullableBytes_length (s : Option Bytes) : 4 ≤ (Kafka.nullableBytes s).length := by
  cases s with
  | none => simp [Kafka.nullableBytes]
  | some b => simp [Kafka.nullableBytes]

theorem oldTail_pos (m : Kafka.LegacyMessage) : 9 ≤ (oldTail m).length := by
  have h1 := nullableBytes_length m.key
  have h2 := nullableBytes_length m.value
  unfold oldTail
  have h8 : ∀ v, (Kafka.int8 v).length = 1 := by intro v; simp
  simp only [List.length_append, h8]
  omega

theorem old_length (m : Kafka.LegacyMessage) : (Kafka.legacyMessage m).length = 16 + (Kafka.legacyBody m).length := by
  rw [old_lead_main, List.length_append, oldLead_length, oldMain_length]; omega

theorem old_size (m : Kafka.LegacyMessage) (hm : OldFits m) (rest : Bytes) :
    beAt 4 8 (oldLead m ++ rest) = (Kafka.legacyBody m).length + 4 := by
  have h := hm.size
  rw [old_length] at h
  unfold oldLead
  rw [List.append_assoc, beAt_append 4 8 _ _ _ (by simp) (by simp), beVal_int32]
  omega

theorem old_magic (m : Kafka.LegacyMessage) (hm : OldFits m) : beAt 1 16 (oldHead m) < 2 := by
  unfold oldHead
  have := beAt_append 1 16 (oldLead m ++ Kafka.int32 (Kafka.crc32 (Kafka.legacyBody m)).toNat) (Kafka.int8 m.magic) []
    (by simp [oldLead]) (by simp)
  rw [List.append_nil, List.append_assoc] at this
  rw [this]
  rcases hm.format with h | h <;> rw [h] <;> decide

theorem old_attributes (m : Kafka.LegacyMessage) (hm : OldFits m) : (goMessage m).attributes &&& 7 = 0 := by
  have h1 := hm.plain
  have h2 := hm.fits.attributes
  unfold goMessage
  simp only
  generalize m.attributes = a at h1 h2
  obtain ⟨k, rfl⟩ : ∃ k, a = 8 * k := ⟨a / 8, by omega⟩
  have hk : -16 ≤ k ∧ k < 16 := by omega
  obtain ⟨n, hn, rfl⟩ : ∃ n : Nat, n < 32 ∧ k = (n : Int) - 16 := ⟨(k + 16).toNat, by omega, by omega⟩
  have : ∀ n : Fin 32, Int8.ofInt (8 * ((n.val : Int) - 16)) &&& 7 = 0 := by decide
  exact this ⟨n, hn⟩

theorem decode_old (env : FetchEnv) (hf : 2 ≤ env.legacyFuel) (m : Kafka.LegacyMessage) (hm : OldFits m) :
    decodeToMessageSet env.compress env.legacyFuel (Kafka.legacyMessage m) = .ok [goMessage m] := by
  obtain ⟨k, hk⟩ : ∃ k, env.legacyFuel = k + 2 := ⟨env.legacyFuel - 2, by omega⟩
  have hr := creads_legacyMessage m hm.fits [] []
  have hlen := old_length m
  unfold decodeToMessageSet
  rw [hk, decodeMessagesFrom, if_neg (by omega)]
  simp only [List.nil_append, List.append_nil, List.length_nil, Nat.zero_add, Int.ofNat_zero] at hr
  change rdLegacyMessage (Kafka.legacyMessage m) 0 = _ at hr
  rw [hr]
  simp only
  rw [if_pos (old_attributes m hm), decodeMessagesFrom, if_pos rfl]

theorem putLegacy_old (env : FetchEnv) (hacc : ∀ n, env.accept n = true) (hf : 2 ≤ env.legacyFuel) (topic : Bytes)
    (part : Int32) (m : Kafka.LegacyMessage) (hm : OldFits m) (s : SD) :
    putLegacy env topic part (Kafka.legacyMessage m) s = .ok true (s.deliver (wanted env topic part [goMessage m])) := by
  unfold putLegacy
  rw [decode_old env hf m hm, FM.bind_def]
  simp only [FM.lift]
  rw [if_neg (by simp), FM.bind_def]
  unfold putAll
  rw [FM.bind_def, filterAndPut_ok env hacc]
  unfold putAll
  rfl

/-! ## The loop -/

theorem skip_skip (s : SD) (a b c : Bytes) (cs ds : List Bytes) (d : Bytes) :
    (s.skip a d ds).skip b c cs = s.skip (a ++ b) c cs := by
  unfold SD.skip
  simp only [SD.mk.injEq, Rdr.mk.injEq, List.length_append, true_and, and_true]
  constructor <;> omega

theorem skip_deliver (s : SD) (a c : Bytes) (cs : List Bytes) (fs : List FullMessage) :
    (s.deliver fs).skip a c cs = (s.skip a c cs).deliver fs := rfl

/-- Complete messages are put one after the other. -/
theorem legacyLoop_old (env : FetchEnv) (hacc : ∀ n, env.accept n = true) (hf : 2 ≤ env.legacyFuel) (topic : Bytes)
    (part : Int32) (ms : List Kafka.LegacyMessage) (hms : ∀ m ∈ ms, OldFits m) (n : Nat) (acc : Int) (s : SD) (c : Bytes)
    (cs : List Bytes) (h : s.rd.chunks = (Kafka.legacyMessageSet ms ++ c) :: cs)
    (hl : (Kafka.legacyMessageSet ms).length ≤ s.rd.limit) :
    legacyLoop env topic part (ms.length + n) acc s =
      legacyLoop env topic part n (acc + (Kafka.legacyMessageSet ms).length)
        ((s.skip (Kafka.legacyMessageSet ms) c cs).deliver (wanted env topic part (ms.map goMessage))) := by
  induction ms generalizing s acc with
  | nil =>
    have : s.skip (Kafka.legacyMessageSet []) c cs = s := by
      obtain ⟨⟨ch, l, f⟩, o, ho, d⟩ := s
      simp only [Kafka.legacyMessageSet, List.flatMap_nil, List.nil_append] at h
      subst h
      rfl
    rw [this]
    simp [Kafka.legacyMessageSet, wanted, SD.deliver_nil]
  | cons m ms ih =>
    have hm := hms m (by simp)
    have hset : Kafka.legacyMessageSet (m :: ms) = oldLead m ++ (oldMain m ++ Kafka.legacyMessageSet ms) := by
      unfold Kafka.legacyMessageSet
      rw [List.flatMap_cons, old_lead_main, List.append_assoc]
    have hmain := oldMain_length m
    rw [hset] at h hl
    simp only [List.length_append, oldLead_length] at hl
    simp only [List.append_assoc] at h
    rw [show (m :: ms).length + n = (ms.length + n) + 1 by simp; omega, legacyLoop, FM.bind_def,
      fetchRead_chunk (oldLead m) 12 (oldLead_length m) s (oldMain m ++ (Kafka.legacyMessageSet ms ++ c)) cs h (by omega)]
    simp only
    have hsz := old_size m hm []
    rw [List.append_nil] at hsz
    rw [hsz, FM.bind_def, fetchRead1_chunk (oldMain m) (Kafka.legacyMessageSet ms ++ c) _
      (s.skip (oldLead m) (oldMain m ++ (Kafka.legacyMessageSet ms ++ c)) cs) cs
      (by intro hh; rw [hh] at hmain; simp at hmain) rfl (by omega) (by
        show _ ≤ s.rd.limit - (oldLead m).length
        rw [oldLead_length]; omega) (Or.inl (by omega))]
    simp only
    rw [if_neg (by omega), hmain, Nat.sub_self, List.replicate_zero, List.append_nil, ← old_lead_main, FM.bind_def,
      putLegacy_old env hacc hf topic part m hm]
    simp only [if_true]
    rw [skip_skip, ← old_lead_main]
    rw [ih (fun y hy => hms y (by simp [hy])) _
      ((s.skip (Kafka.legacyMessage m) (Kafka.legacyMessageSet ms ++ c) cs).deliver (wanted env topic part [goMessage m])) rfl (by
        show _ ≤ s.rd.limit - (Kafka.legacyMessage m).length
        rw [old_lead_main, List.length_append, oldLead_length]
        omega)]
    rw [skip_deliver, skip_skip, SD.deliver_deliver, ← wanted_append]
    have he : Kafka.legacyMessage m ++ Kafka.legacyMessageSet ms = Kafka.legacyMessageSet (m :: ms) := by
      unfold Kafka.legacyMessageSet; rw [List.flatMap_cons]
    rw [he]
    congr 1
    rw [← he, List.length_append, old_lead_main, List.length_append, oldLead_length, hmain]
    omega

/-- The first message is read by the loop over the batches; the others by the loop for the old formats,
which goes on with what follows them. -/
theorem messageSet_old (env : FetchEnv) (hacc : ∀ n, env.accept n = true) (hf : 2 ≤ env.legacyFuel) (topic : Bytes)
    (part : Int32) (m : Kafka.LegacyMessage) (ms : List Kafka.LegacyMessage) (hms : ∀ x ∈ m :: ms, OldFits x)
    (size : Int) (fuel : Nat) (s : SD) (c : Bytes)
    (cs : List Bytes) (h : s.rd.chunks = (Kafka.legacyMessageSet (m :: ms) ++ c) :: cs)
    (hl : (Kafka.legacyMessageSet (m :: ms)).length ≤ s.rd.limit) (hsize : 0 < size) :
    ∃ n, s.rd.limit - (Kafka.legacyMessageSet (m :: ms)).length < n ∧
    messageSetLoop env topic part size (fuel + 1) 0 s =
      (do let o ← legacyLoop env topic part n ((Kafka.legacyMessageSet (m :: ms)).length - 17)
          messageSetLoop env topic part size fuel (17 + o))
        ((s.skip (Kafka.legacyMessageSet (m :: ms)) c cs).deliver (wanted env topic part ((m :: ms).map goMessage))) := by
  have hm := hms m (by simp)
  have hset : Kafka.legacyMessageSet (m :: ms) = oldHead m ++ (oldTail m ++ Kafka.legacyMessageSet ms) := by
    unfold Kafka.legacyMessageSet
    rw [List.flatMap_cons, old_head_tail, List.append_assoc]
  have htail := oldTail_length m
  have htl := oldTail_pos m
  rw [hset] at h hl
  simp only [List.length_append, oldHead_length] at hl
  simp only [List.append_assoc] at h
  have hcount : ∀ (l : List Kafka.LegacyMessage), l.length ≤ (Kafka.legacyMessageSet l).length := by
    intro l
    induction l with
    | nil => simp
    | cons x l ih =>
      have : Kafka.legacyMessageSet (x :: l) = Kafka.legacyMessage x ++ Kafka.legacyMessageSet l := by
        unfold Kafka.legacyMessageSet; rw [List.flatMap_cons]
      rw [this, List.length_append, List.length_cons, old_length]
      omega
  have hc := hcount ms
  refine ⟨s.rd.limit - 17 - (oldTail m).length + 1 - ms.length, ?_, ?_⟩
  · rw [hset]
    simp only [List.length_append, oldHead_length]
    omega
  rw [messageSetLoop, if_pos hsize, FM.bind_def,
    fetchRead_chunk (oldHead m) 17 (oldHead_length m) s (oldTail m ++ (Kafka.legacyMessageSet ms ++ c)) cs h (by omega)]
  simp only
  have hd : decodeMessageSetMagic0or1 env topic part (oldHead m) (s.skip (oldHead m) (oldTail m ++ (Kafka.legacyMessageSet ms ++ c)) cs)
      = legacyLoop env topic part (((s.skip (Kafka.legacyMessage m) (Kafka.legacyMessageSet ms ++ c) cs).deliver
          (wanted env topic part [goMessage m])).rd.limit + 1) (oldTail m).length
        ((s.skip (Kafka.legacyMessage m) (Kafka.legacyMessageSet ms ++ c) cs).deliver (wanted env topic part [goMessage m])) := by
    unfold decodeMessageSetMagic0or1
    have hsz : beAt 4 8 (oldHead m) = (Kafka.legacyBody m).length + 4 := old_size m hm _
    rw [hsz, if_neg (by omega), FM.bind_def, fetchRead1_chunk (oldTail m) (Kafka.legacyMessageSet ms ++ c) _
        (s.skip (oldHead m) (oldTail m ++ (Kafka.legacyMessageSet ms ++ c)) cs) cs
        (by intro hh; rw [hh] at htl; simp at htl) rfl (by omega) (by
          show _ ≤ s.rd.limit - (oldHead m).length
          rw [oldHead_length]; omega) (Or.inl (by omega))]
    simp only
    rw [if_neg (by omega), ← old_head_tail, FM.bind_def, putLegacy_old env hacc hf topic part m hm, skip_skip, ← old_head_tail]
    rfl
  rw [if_pos (old_magic m hm), FM.bind_def, hd]
  have hlim : ((s.skip (Kafka.legacyMessage m) (Kafka.legacyMessageSet ms ++ c) cs).deliver
      (wanted env topic part [goMessage m])).rd.limit + 1
        = ms.length + (s.rd.limit - 17 - (oldTail m).length + 1 - ms.length) := by
    show s.rd.limit - (Kafka.legacyMessage m).length + 1 = _
    rw [old_head_tail, List.length_append, oldHead_length]
    omega
  rw [hlim, legacyLoop_old env hacc hf topic part ms (fun y hy => hms y (by simp [hy])) _ _
      ((s.skip (Kafka.legacyMessage m) (Kafka.legacyMessageSet ms ++ c) cs).deliver (wanted env topic part [goMessage m])) c cs rfl (by
        show _ ≤ s.rd.limit - (Kafka.legacyMessage m).length
        rw [old_head_tail, List.length_append, oldHead_length]
        omega)]
  rw [skip_deliver, skip_skip, SD.deliver_deliver, ← wanted_append]
  have he : Kafka.legacyMessage m ++ Kafka.legacyMessageSet ms = Kafka.legacyMessageSet (m :: ms) := by
    unfold Kafka.legacyMessageSet; rw [List.flatMap_cons]
  rw [he, FM.bind_def]
  have hacc' : ((oldTail m).length : Int) + (Kafka.legacyMessageSet ms).length = (Kafka.legacyMessageSet (m :: ms)).length - 17 := by
    rw [hset]
    simp only [List.length_append, oldHead_length]
    omega
  rw [hacc']
  simp only [Int.zero_add, List.map_cons, List.singleton_append]

end Healer
