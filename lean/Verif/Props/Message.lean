import Verif.Lemmas.Message

/-!
# C13, C82: legacy message sets
-/

namespace Healer

/-- C13. A legacy message set encoded into a buffer of the size the client computes is Kafka's
message set (with lengths and CRC-32 checksums), and decoding it gives the same messages back in the
same order, with size and checksum filled in.  A nil value is written as an empty one and a format 0
message has no timestamp. -/
theorem C13_message_set_roundtrip (compress : Compress) (ms : List Message)
    (hk : ∀ m ∈ ms, optLen m.key < 2 ^ 31) (hv : ∀ m ∈ ms, optLen m.value < 2 ^ 31)
    (hc : ∀ m ∈ ms, m.attributes &&& 7 = 0) (fuel : Nat) (hf : ms.length < fuel) :
    encodeFull (messageSetLength ms) (encodeMessageSet ms)
      = .ok (Kafka.legacyMessageSet (ms.map Message.toSpec)) ∧
    ∃ out, decodeToMessageSet compress fuel (Kafka.legacyMessageSet (ms.map Message.toSpec)) = .ok out ∧
      out.map (fun m => (m.offset, m.magicByte, m.attributes, m.timestamp, m.key, m.value))
        = ms.map (fun m => (m.offset, m.magicByte, m.attributes,
            if m.magicByte = 1 then m.timestamp else 0, m.key, some (m.value.getD []))) := by
  refine ⟨encodeFull_exact (writes_messageSet ms) (messageSetLength_eq ms).symm, ?_⟩
  refine ⟨_, decodeMessagesFrom_append compress (ms.map Message.toSpec) ?_ ?_ [] fuel (by simpa using hf), ?_⟩
  · intro s hs
    rw [List.mem_map] at hs
    obtain ⟨m, hm, rfl⟩ := hs
    refine ⟨?_, ?_, ?_, ?_, ?_⟩
    · have := Int64.toInt_lt m.offset; have := Int64.le_toInt m.offset
      simp only [Message.toSpec]; omega
    · have := Int8.toInt_lt m.magicByte; have := Int8.le_toInt m.magicByte
      simp only [Message.toSpec]; omega
    · have := Int8.toInt_lt m.attributes; have := Int8.le_toInt m.attributes
      simp only [Message.toSpec]; omega
    · intro b hb
      have := hk m hm
      simp only [Message.toSpec] at hb
      rw [hb] at this
      simpa [optLen] using this
    · intro b hb
      have := hv m hm
      simp only [Message.toSpec, Option.some.injEq] at hb
      subst hb
      rw [optLen_getD]; exact this
  · intro s hs
    rw [List.mem_map] at hs
    obtain ⟨m, hm, rfl⟩ := hs
    simpa [Message.toSpec] using hc m hm
  · rw [List.map_map, List.map_map]
    apply List.map_congr_left
    intro m hm
    have h64 : (Int64.ofInt (m.timestamp.toNat : Int)).toUInt64 = m.timestamp := by
      rw [Int64.ofInt_eq_ofNat]; simp
    simp only [Function.comp, goMessage, Message.toSpec, Int64.ofInt_toInt, Int8.ofInt_toInt, int8_toInt_eq_one, h64]

example :
    (encodeFull (messageSetLength [{ magicByte := 1, timestamp := 7, key := some [], value := some [1, 2] }, { offset := 3, value := some [] }])
      (encodeMessageSet [{ magicByte := 1, timestamp := 7, key := some [], value := some [1, 2] }, { offset := 3, value := some [] }])).okAnd
      (fun bs => (decodeToMessageSet (fun _ _ => .panic) 3 bs).okAnd (fun ms => decide
        (ms.map (fun m => (m.offset, m.timestamp, m.key, m.value)) = [(0, 7, some [], some [1, 2]), (3, 0, none, some [])]))) = true := by
  decide +kernel

/-- A wrapper message holding the compressed message set `inner`, as Kafka stores it. -/
def wrapperMessage (codec : Int) (compressed : Bytes) : Kafka.LegacyMessage :=
  { offset := 0, magic := 0, attributes := codec, timestamp := 0, key := none, value := some compressed }

/-- A message set with one small message. -/
def smallSet : List Kafka.LegacyMessage :=
  [{ offset := 0, magic := 0, attributes := 0, timestamp := 0, key := none, value := some [1] }]

/-- C82 fails: with a lossless codec that is not its own inverse, the messages inside a compressed
wrapper message are not decoded, because the client compresses the value once more instead of
decompressing it. -/
theorem C82_violated_compressed :
    ∃ (compress : Compress) (decompress : Int8 → Bytes → Out Bytes) (inner : List Kafka.LegacyMessage) (z : Bytes),
      (∀ c b, ∃ z, compress c b = .ok z ∧ decompress c z = .ok b) ∧
      compress 1 (Kafka.legacyMessageSet inner) = .ok z ∧
      (∀ fuel, ¬ ∃ ms, decodeToMessageSet compress fuel (Kafka.legacyMessage (wrapperMessage 1 z)) = .ok ms) := by
  refine ⟨fun _ b => .ok (31 :: 139 :: b), fun _ b => .ok (b.drop 2), smallSet,
    31 :: 139 :: Kafka.legacyMessageSet smallSet, ?_, rfl, ?_⟩
  · intro c b; exact ⟨_, rfl, rfl⟩
  · rintro fuel ⟨ms, h⟩
    have h1 : rdLegacyMessage (Kafka.legacyMessage (wrapperMessage 1 (31 :: 139 :: Kafka.legacyMessageSet smallSet))) 0
        = .ok ({ messageSize := 43, crc := 3007753465, attributes := 1,
                 value := some (31 :: 139 :: Kafka.legacyMessageSet smallSet) }, 55) := by
      decide +kernel
    have h2 : rdLegacyMessage (31 :: 139 :: 31 :: 139 :: Kafka.legacyMessageSet smallSet) 0 = .panic := by
      decide +kernel
    have h3 : ((Kafka.legacyMessage (wrapperMessage 1 (31 :: 139 :: Kafka.legacyMessageSet smallSet))).length : Int) ≠ 0 := by
      decide +kernel
    have h4 : ((31 :: 139 :: 31 :: 139 :: Kafka.legacyMessageSet smallSet : Bytes).length : Int) ≠ 0 := by
      decide +kernel
    unfold decodeToMessageSet at h
    generalize Kafka.legacyMessage (wrapperMessage 1 (31 :: 139 :: Kafka.legacyMessageSet smallSet)) = w at *
    generalize Kafka.legacyMessageSet smallSet = inner at *
    match fuel, h with
    | 0, h => simp [decodeMessagesFrom] at h
    | 1, h =>
      rw [decodeMessagesFrom, if_neg (fun e => h3 e.symm), h1] at h
      simp only [Message.decompress] at h
      rw [if_neg (by decide)] at h
      simp [decodeMessagesFrom] at h
    | f + 2, h =>
      rw [decodeMessagesFrom, if_neg (fun e => h3 e.symm), h1] at h
      simp only [Message.decompress] at h
      rw [if_neg (by decide)] at h
      simp only [Option.getD_some] at h
      rw [decodeMessagesFrom, if_neg (fun e => h4 e.symm), h2] at h
      simp at h

/-- What a message of a legacy set stands for: itself if it is plain, the messages of its decompressed value otherwise. -/
inductive Unpacks (codec : Compress) : Kafka.LegacyMessage → List Kafka.LegacyMessage → Prop where
  | plain (m : Kafka.LegacyMessage) (h : Int8.ofInt m.attributes &&& 7 = 0) : Unpacks codec m [m]
  | packed (m : Kafka.LegacyMessage) (inner : List Kafka.LegacyMessage) (h : Int8.ofInt m.attributes &&& 7 ≠ 0)
      (hv : codec (Int8.ofInt m.attributes &&& 3) (m.value.getD []) = .ok (Kafka.legacyMessageSet inner))
      (hf : ∀ i ∈ inner, LegacyFits i) (hp : ∀ i ∈ inner, Int8.ofInt i.attributes &&& 7 = 0) : Unpacks codec m inner

/-- C82, apart from the codec: if what the client calls on the value of a compressed message gave the messages in it, then a set would be decoded into the plain messages
and the messages in the compressed ones, all of them and in order.
Missing for the full statement: what the client calls is the compressor, see `C82_violated_compressed`. -/
theorem C82_unpacked_partial (codec : Compress) (outer : List (Kafka.LegacyMessage × List Kafka.LegacyMessage))
    (hfit : ∀ o ∈ outer, LegacyFits o.1) (hu : ∀ o ∈ outer, Unpacks codec o.1 o.2) (fuel : Nat)
    (hf : outer.length + (outer.flatMap Prod.snd).length + 1 < fuel) :
    decodeToMessageSet codec fuel (Kafka.legacyMessageSet (outer.map Prod.fst)) = .ok ((outer.flatMap Prod.snd).map goMessage) := by
  suffices H : ∀ (pre : Bytes), decodeMessagesFrom codec fuel (pre ++ Kafka.legacyMessageSet (outer.map Prod.fst)) pre.length
      = .ok ((outer.flatMap Prod.snd).map goMessage) from H []
  induction outer generalizing fuel with
  | nil =>
    obtain ⟨f, rfl⟩ : ∃ f, fuel = f + 1 := ⟨fuel - 1, by omega⟩
    intro pre
    simp [decodeMessagesFrom, Kafka.legacyMessageSet]
  | cons o os ih =>
    intro pre
    obtain ⟨f, rfl⟩ : ∃ f, fuel = f + 1 := ⟨fuel - 1, by omega⟩
    obtain ⟨m, inner⟩ := o
    have hpos := legacyMessage_pos m
    simp only [List.flatMap_cons, List.length_append, List.length_cons] at hf
    have hrest := ih (fun x hx => hfit x (by simp [hx])) (fun x hx => hu x (by simp [hx])) f (by
      cases show Unpacks codec m inner from hu (m, inner) (by simp) with
      | plain h => simp only [List.length_singleton] at hf; omega
      | packed h hv _ _ => omega) (pre ++ Kafka.legacyMessage m)
    rw [List.append_assoc, List.length_append] at hrest
    unfold decodeMessagesFrom
    have hset : Kafka.legacyMessageSet (((m, inner) :: os).map Prod.fst) = Kafka.legacyMessage m ++ Kafka.legacyMessageSet (os.map Prod.fst) := by
      simp [Kafka.legacyMessageSet]
    rw [hset, if_neg (by simp; omega), creads_legacyMessage m (hfit (m, inner) (by simp)) pre (Kafka.legacyMessageSet (os.map Prod.fst))]
    simp only
    cases show Unpacks codec m inner from hu (m, inner) (by simp) with
    | plain h =>
      rw [if_pos (show (goMessage m).attributes &&& 7 = 0 from h), hrest]
      rfl
    | packed _ h hv hfi hpi =>
      rw [if_neg (show ¬ (goMessage m).attributes &&& 7 = 0 from h)]
      rw [show (goMessage m).decompress codec = .ok (Kafka.legacyMessageSet inner) from hv]
      have hin := decodeMessagesFrom_append codec inner hfi hpi [] f (by omega)
      rw [List.nil_append, show (([] : Bytes).length : Int) = 0 from rfl] at hin
      simp only [hin, hrest]
      simp

/-- another small message -/
def smallNext : Kafka.LegacyMessage := { offset := 4, magic := 0, attributes := 0, timestamp := 0, key := none, value := some [7] }

/-- a codec for which the theorem speaks: its own inverse (it turns a leading 0 into a leading 1 and back) -/
def flipCodec : Compress := fun _ b => .ok (match b with | x :: r => (1 - x) :: r | [] => [])

example : Unpacks flipCodec (wrapperMessage 1 (1 :: (Kafka.legacyMessageSet smallSet).drop 1)) smallSet
    ∧ decodeToMessageSet flipCodec 9 (Kafka.legacyMessageSet [wrapperMessage 1 (1 :: (Kafka.legacyMessageSet smallSet).drop 1), smallNext])
      = .ok ((smallSet ++ [smallNext]).map goMessage) := by
  refine ⟨.packed _ _ (by decide +kernel) (by decide +kernel) ?_ (by decide +kernel), by decide +kernel⟩
  intro i hi
  simp only [smallSet, List.mem_singleton] at hi
  subst hi
  exact ⟨by decide, by decide, by decide, by simp, by simp⟩

end Healer
