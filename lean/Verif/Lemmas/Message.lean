import Verif.Model.Message
import Verif.Lemmas.Record
import Verif.Lemmas.Group

namespace Healer

theorem Writes.sumBlock {sum : Bytes → UInt32} {body : Enc} {bs : Bytes} (h : Writes body bs) :
    Writes (Enc.sumBlock sum body) (be32 (sum bs) ++ bs) := by
  intro w hw
  unfold Enc.sumBlock
  have hl : (be32 (sum bs)).length = 4 := by simp [be32]
  rw [List.length_append, hl] at hw
  rw [h _ (by simp; omega)]
  have hd : (w.data ++ [0, 0, 0, 0] ++ bs).drop (w.data.length + 4) = bs := List.drop_left' (by simp)
  simp only [hd]
  rw [if_pos (by simp; omega)]
  simp

/-- The message on the wire: a nil value is written as an empty one. -/
def Message.toSpec (m : Message) : Kafka.LegacyMessage :=
  { offset := m.offset.toInt, magic := m.magicByte.toInt, attributes := m.attributes.toInt,
    timestamp := m.timestamp.toNat, key := m.key, value := some (m.value.getD []) }

theorem writes_legacyKey (k : Option Bytes) : Writes (encodeLegacyKey k) (Kafka.nullableBytes k) := by
  cases k with
  | none => exact (Writes.put _).cast (be32_eq _)
  | some k => exact (Writes.seq (Writes.put _) (Writes.cpyN k)).cast (by rw [be32_ofNat]; rfl)

theorem int8_toInt_eq_one (x : Int8) : x.toInt = 1 ↔ x = 1 := by
  constructor
  · intro h; exact Int8.toInt_inj.1 (by rw [h]; rfl)
  · rintro rfl; rfl

theorem optLen_getD (v : Option Bytes) : (v.getD []).length = optLen v := by cases v <;> rfl

theorem writes_legacyBody (m : Message) : Writes m.encodeBody (Kafka.legacyBody m.toSpec) := by
  unfold Message.encodeBody Kafka.legacyBody
  refine (Writes.all_cons (Writes.put _) (Writes.all_cons (Writes.put _) (Writes.all_cons
    (Writes.when (fun _ => Writes.put _)) (Writes.all_cons (writes_legacyKey _) (Writes.all_cons (Writes.put _)
    (Writes.all_cons (Writes.cpyN _) Writes.all_nil)))))).cast ?_
  simp only [be32_ofNat, int8_eq, Message.toSpec, be64_toNat, Kafka.nullableBytes, optLen_getD, List.append_nil,
    List.append_assoc, int8_toInt_eq_one, decide_eq_true_eq]

theorem legacyBody_length (m : Message) :
    (Kafka.legacyBody m.toSpec).length
      = 10 + optLen m.key + optLen m.value + (if m.magicByte = 1 then 8 else 0) := by
  unfold Kafka.legacyBody
  have hk : (Kafka.nullableBytes m.key).length = 4 + optLen m.key := by
    cases m.key <;> simp [Kafka.nullableBytes, optLen]
  have hv : (Kafka.nullableBytes (some (m.value.getD []))).length = 4 + optLen m.value := by
    simp [Kafka.nullableBytes, optLen_getD]
  simp only [Message.toSpec, int8_toInt_eq_one, List.length_append, hk, hv, int8_length]
  by_cases h : m.magicByte = 1
  · simp only [h, if_true, int64_length]; omega
  · simp only [h, if_false, List.length_nil]; omega

theorem writes_legacyMessage (m : Message) : Writes m.encode (Kafka.legacyMessage m.toSpec) := by
  unfold Message.encode Kafka.legacyMessage
  refine (Writes.all_cons (Writes.put _) (Writes.all_cons (Writes.put _) (Writes.all_cons
    (Writes.sumBlock (writes_legacyBody m)) Writes.all_nil))).cast ?_
  rw [be64_eq, be32_ofNat, be32_toNat, crc32IEEE_eq, legacyBody_length]
  simp only [List.append_nil, List.append_assoc, Message.toSpec]
  congr 3
  split <;> omega

theorem writes_messageSet (ms : List Message) :
    Writes (encodeMessageSet ms) (Kafka.legacyMessageSet (ms.map Message.toSpec)) := by
  unfold encodeMessageSet Kafka.legacyMessageSet
  rw [List.flatMap_map]
  exact Writes.each ms (fun m _ => writes_legacyMessage m)

theorem legacyMessage_length (m : Message) :
    (Kafka.legacyMessage m.toSpec).length
      = 26 + optLen m.key + optLen m.value + (if m.magicByte = 1 then 8 else 0) := by
  unfold Kafka.legacyMessage
  simp only [List.length_append, legacyBody_length, int64_length, int32_length]
  omega

theorem messageSetLength_eq (ms : List Message) :
    messageSetLength ms = (Kafka.legacyMessageSet (ms.map Message.toSpec)).length := by
  unfold messageSetLength Kafka.legacyMessageSet
  rw [List.flatMap_map]
  have : ∀ a, ms.foldl (fun l m => l + (26 + optLen m.key + optLen m.value) + (if m.magicByte = 1 then 8 else 0)) a
      = a + (ms.flatMap (fun m => Kafka.legacyMessage m.toSpec)).length := by
    induction ms with
    | nil => intro a; simp
    | cons m ms ih =>
      intro a
      rw [List.foldl_cons, ih, List.flatMap_cons, List.length_append, legacyMessage_length]
      omega
  rw [this]; omega

/-! ## Decoding -/

theorem creads_legacyBytes (s : Option Bytes) (h : ∀ b, s = some b → b.length < 2 ^ 31) :
    CReads rdLegacyBytes (Kafka.nullableBytes s) s := by
  unfold rdLegacyBytes
  cases s with
  | none =>
    refine (CReads.bind creads_minus1_32 (e2 := []) ?_).cast (List.append_nil _) rfl
    exact CReads.pure none
  | some b =>
    have hb := h b rfl
    refine CReads.bind (creads_ilen32 _) ?_
    have hi := toInt_ilen32 b.length hb
    unfold Cur.cond
    rw [if_pos]
    · exact CReads.bind_pure (g := some) (reads_rdBytes b _ hi)
    · intro hc
      rw [hc] at hi
      have : (-1 : Int32).toInt = -1 := by decide
      omega

/-- What a legacy message on the wire looks like to the consumer. -/
def goMessage (s : Kafka.LegacyMessage) : Message :=
  { offset := Int64.ofInt s.offset, messageSize := (UInt32.ofNat ((Kafka.legacyBody s).length + 4)).toInt32,
    crc := Kafka.crc32 (Kafka.legacyBody s), magicByte := Int8.ofInt s.magic, attributes := Int8.ofInt s.attributes,
    timestamp := if s.magic = 1 then (Int64.ofInt s.timestamp).toUInt64 else 0, key := s.key, value := s.value }

/-- The fields of a legacy message fit the wire. -/
structure LegacyFits (s : Kafka.LegacyMessage) : Prop where
  offset : -2 ^ 63 ≤ s.offset ∧ s.offset < 2 ^ 63
  magic : -2 ^ 7 ≤ s.magic ∧ s.magic < 2 ^ 7
  attributes : -2 ^ 7 ≤ s.attributes ∧ s.attributes < 2 ^ 7
  key : ∀ b, s.key = some b → b.length < 2 ^ 31
  value : ∀ b, s.value = some b → b.length < 2 ^ 31

theorem int64_ofInt_toInt (v : Int) : Kafka.int64 (Int64.ofInt v).toInt = Kafka.int64 v := by
  unfold Kafka.int64
  congr 2
  rw [Int64.toInt_ofInt]
  simp only [Int64.size]
  exact Int.bmod_emod

theorem creads_int64' (v : Int) : CReads rdI64 (Kafka.int64 v) (Int64.ofInt v) :=
  (creads_int64 (Int64.ofInt v)).cast (int64_ofInt_toInt v) rfl

theorem creads_u64' (v : Int) : CReads rdU64 (Kafka.int64 v) (Int64.ofInt v).toUInt64 := by
  have := reads_rdU64 (Int64.ofInt v).toUInt64
  rw [be64_eq, int64_ofInt_toInt] at this
  exact this

theorem creads_legacyMessage (s : Kafka.LegacyMessage) (hs : LegacyFits s) :
    CReads rdLegacyMessage (Kafka.legacyMessage s) (goMessage s) := by
  have hw : Kafka.legacyMessage s = Kafka.int64 s.offset ++ (Kafka.int32 (((Kafka.legacyBody s).length + 4 : Nat) : Int) ++
      (Kafka.int32 (Kafka.crc32 (Kafka.legacyBody s)).toNat ++ (Kafka.int8 s.magic ++ (Kafka.int8 s.attributes ++
        ((if s.magic = 1 then Kafka.int64 s.timestamp else []) ++ (Kafka.nullableBytes s.key ++
          Kafka.nullableBytes s.value)))))) := by
    have hb : ∀ T, T = Kafka.legacyBody s → Kafka.int64 s.offset ++ Kafka.int32 ((T.length : Int) + 4) ++
        Kafka.int32 (Kafka.crc32 T).toNat ++ T = Kafka.int64 s.offset ++ (Kafka.int32 ((T.length + 4 : Nat) : Int) ++
      (Kafka.int32 (Kafka.crc32 T).toNat ++ (Kafka.int8 s.magic ++ (Kafka.int8 s.attributes ++
        ((if s.magic = 1 then Kafka.int64 s.timestamp else []) ++ (Kafka.nullableBytes s.key ++
          Kafka.nullableBytes s.value)))))) := by
      intro T hT
      have : T = Kafka.int8 s.magic ++ (Kafka.int8 s.attributes ++
        ((if s.magic = 1 then Kafka.int64 s.timestamp else []) ++ (Kafka.nullableBytes s.key ++
          Kafka.nullableBytes s.value))) := by
        rw [hT]; unfold Kafka.legacyBody; simp only [List.append_assoc]
      rw [← this]
      simp only [List.append_assoc]
      rfl
    exact hb _ rfl
  rw [hw]
  unfold rdLegacyMessage
  refine CReads.bind (creads_int64' _) ?_
  refine CReads.bind (creads_ilen32 _) ?_
  refine CReads.bind (creads_u32 _) ?_
  refine CReads.bind (creads_int8' _ hs.magic) ?_
  refine CReads.bind (creads_int8' _ hs.attributes) ?_
  refine CReads.bind (CReads.cond' ?_ (fun _ => creads_u64' s.timestamp)) ?_
  · rw [← int8_toInt_eq_one]
    rw [show (Int8.ofInt s.magic).toInt = s.magic from ?_]
    rw [Int8.toInt_ofInt]
    have := hs.magic
    exact Int.bmod_eq_of_le (by simp only [Int8.size]; omega) (by simp only [Int8.size]; omega)
  refine CReads.bind (creads_legacyBytes _ hs.key) ?_
  exact CReads.bind_pure (creads_legacyBytes _ hs.value)

theorem legacyMessage_pos (s : Kafka.LegacyMessage) : 0 < (Kafka.legacyMessage s).length := by
  unfold Kafka.legacyMessage; simp; omega

theorem decodeMessagesFrom_append (compress : Compress) (ss : List Kafka.LegacyMessage)
    (hs : ∀ s ∈ ss, LegacyFits s) (hc : ∀ s ∈ ss, Int8.ofInt s.attributes &&& 7 = 0) (pre : Bytes) (fuel : Nat)
    (hf : ss.length < fuel) :
    decodeMessagesFrom compress fuel (pre ++ Kafka.legacyMessageSet ss) pre.length = .ok (ss.map goMessage) := by
  induction ss generalizing pre fuel with
  | nil =>
    obtain ⟨f, rfl⟩ : ∃ f, fuel = f + 1 := ⟨fuel - 1, by simp at hf; omega⟩
    simp [decodeMessagesFrom, Kafka.legacyMessageSet]
  | cons s ss ih =>
    obtain ⟨f, rfl⟩ : ∃ f, fuel = f + 1 := ⟨fuel - 1, by simp at hf; omega⟩
    have hpos := legacyMessage_pos s
    unfold decodeMessagesFrom
    have hset : Kafka.legacyMessageSet (s :: ss) = Kafka.legacyMessage s ++ Kafka.legacyMessageSet ss := by
      simp [Kafka.legacyMessageSet]
    rw [hset, if_neg (by simp; omega)]
    rw [creads_legacyMessage s (hs s (by simp)) pre (Kafka.legacyMessageSet ss)]
    simp only
    rw [if_pos (show (goMessage s).attributes &&& 7 = 0 from hc s (by simp))]
    have := ih (fun x hx => hs x (by simp [hx])) (fun x hx => hc x (by simp [hx])) (pre ++ Kafka.legacyMessage s) f
      (by simp at hf; omega)
    rw [List.append_assoc, List.length_append] at this
    rw [this]
    rfl

end Healer
