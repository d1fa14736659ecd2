import Verif.Lemmas.FetchKeep
import Verif.Lemmas.Message
import Verif.Model.Config

/-!
# C154: decoding a fetch response ends, and gives no more than was sent

The loops of the decoder have no bound of their own in the code; in the model they carry one, and stop with an error which no execution of the code gives when
it is used up.  The specification is the loop without bound: a round is repeated until it says that it is done, fails or crashes (`Repeats`).  The number of
rounds is counted.
-/

namespace Healer

/-- `for { … }`: the round is run from `x` and the state until it does not go on; `n` rounds go on. -/
inductive Repeats {σ α : Type} (round : σ → FM (σ ⊕ α)) : Nat → σ → SD → Res α → Prop
  | done {x s a s'} : round x s = .ok (.inr a) s' → Repeats round 0 x s (.ok a s')
  | failed {x s e s'} : round x s = .err e s' → Repeats round 0 x s (.err e s')
  | crashed {x s} : round x s = .panic → Repeats round 0 x s .panic
  | again {x s y s' n r} : round x s = .ok (.inl y) s' → Repeats round n y s' r → Repeats round (n + 1) x s r

/-- A loop comes to one end only. -/
theorem Repeats.unique {σ α : Type} {round : σ → FM (σ ⊕ α)} {n m : Nat} {x : σ} {s : SD} {r r' : Res α} (h : Repeats round n x s r) (h' : Repeats round m x s r') :
    n = m ∧ r = r' := by
  induction h generalizing m r' with
  | done h => cases h' <;> simp_all
  | failed h => cases h' <;> simp_all
  | crashed h => cases h' <;> simp_all
  | again h _ ih =>
    cases h' with
    | done h' => rw [h] at h'; cases h'
    | failed h' => rw [h] at h'; cases h'
    | crashed h' => rw [h] at h'; cases h'
    | again h' hr =>
      rw [h] at h'
      cases h'
      obtain ⟨rfl, rfl⟩ := ih hr
      exact ⟨rfl, rfl⟩

/-- what a loop does after a round -/
def carryOn {σ α : Type} (r : Res (σ ⊕ α)) (rest : σ → FM α) : Res α :=
  match r with
  | .ok (.inr a) s' => .ok a s'
  | .ok (.inl y) s' => rest y s'
  | .err e s' => .err e s'
  | .panic => .panic

/-- If every round that goes on reads `k > 0` bytes, the loop with a bound above the number of bytes left is the loop without bound. -/
theorem repeats_of_reading {σ α : Type} {round : σ → FM (σ ⊕ α)} {loop : Nat → σ → FM α} {k : Nat} (hk : 0 < k)
    (hloop : ∀ n x s, loop (n + 1) x s = carryOn (round x s) (loop n))
    (hround : ∀ x s y s', round x s = .ok (.inl y) s' → s'.rd.limit + k ≤ s.rd.limit) :
    ∀ (l : Nat) (x : σ) (s : SD), s.rd.limit ≤ l → ∃ n r, Repeats round n x s r ∧ n * k ≤ s.rd.limit ∧ ∀ bound, s.rd.limit < bound → loop bound x s = r := by
  intro l
  induction l with
  | zero =>
    intro x s hs
    cases h : round x s with
    | ok a s' =>
      cases a with
      | inr a => exact ⟨0, _, .done h, by omega, fun b hb => by obtain ⟨b, rfl⟩ : ∃ c, b = c + 1 := ⟨b - 1, by omega⟩; rw [hloop, h]; rfl⟩
      | inl y => have := hround x s y s' h; omega
    | err e s' => exact ⟨0, _, .failed h, by omega, fun b hb => by obtain ⟨b, rfl⟩ : ∃ c, b = c + 1 := ⟨b - 1, by omega⟩; rw [hloop, h]; rfl⟩
    | panic => exact ⟨0, _, .crashed h, by omega, fun b hb => by obtain ⟨b, rfl⟩ : ∃ c, b = c + 1 := ⟨b - 1, by omega⟩; rw [hloop, h]; rfl⟩
  | succ l ih =>
    intro x s hs
    cases h : round x s with
    | ok a s' =>
      cases a with
      | inr a => exact ⟨0, _, .done h, by omega, fun b hb => by obtain ⟨b, rfl⟩ : ∃ c, b = c + 1 := ⟨b - 1, by omega⟩; rw [hloop, h]; rfl⟩
      | inl y =>
        have hd := hround x s y s' h
        obtain ⟨n, r, h1, h2, h3⟩ := ih y s' (by omega)
        refine ⟨n + 1, r, .again h h1, by rw [Nat.succ_mul]; omega, fun b hb => ?_⟩
        obtain ⟨b, rfl⟩ : ∃ c, b = c + 1 := ⟨b - 1, by omega⟩
        rw [hloop, h, carryOn]
        exact h3 b (by omega)
    | err e s' => exact ⟨0, _, .failed h, by omega, fun b hb => by obtain ⟨b, rfl⟩ : ∃ c, b = c + 1 := ⟨b - 1, by omega⟩; rw [hloop, h]; rfl⟩
    | panic => exact ⟨0, _, .crashed h, by omega, fun b hb => by obtain ⟨b, rfl⟩ : ∃ c, b = c + 1 := ⟨b - 1, by omega⟩; rw [hloop, h]; rfl⟩

/-! ## The batches of a partition -/

/-- one round of the loop of fetch_response.go:333-362, from the local `offset` -/
def batchRound (env : FetchEnv) (topic : Bytes) (part : Int32) (size offset : Int) : FM (Int ⊕ Unit) :=
  if offset < size then do
    let (header17, e) ← fetchRead 17
    match e with
    | some e => if e = .unexpectedEof then pure (.inr ()) else FM.fail e
    | none => do
      let o ← (if beAt 1 16 header17 < 2 then decodeMessageSetMagic0or1 env topic part header17 else decodeRecordsMagic2 env topic part header17)
      pure (.inl (offset + 17 + o))
  else pure (.inr ())

/-- A complete read takes as many bytes. -/
theorem fetchRead_limit {n : Nat} {s s' : SD} {got : Bytes} (h : fetchRead n s = .ok (got, none) s') : s'.rd.limit + n ≤ s.rd.limit := by
  unfold fetchRead at h
  by_cases hc : n ≤ (s.rd.flat.take s.rd.limit).length
  · obtain ⟨r', h1, h2, h3, h4⟩ := readFull_ok n s.rd hc
    rw [h1] at h
    cases h
    rw [List.length_take] at hc
    simp only [h3]
    omega
  · obtain ⟨r', h1, h2, h3, h4⟩ := readFull_short n s.rd (by omega)
    rw [h1] at h
    cases h

theorem batchRound_reads (env : FetchEnv) (topic : Bytes) (part : Int32) (size x : Int) (s : SD) (y : Int) (s' : SD)
    (h : batchRound env topic part size x s = .ok (.inl y) s') : s'.rd.limit + 17 ≤ s.rd.limit := by
  unfold batchRound at h
  by_cases hx : x < size
  · rw [if_pos hx, FM.bind_def] at h
    cases hr : fetchRead 17 s with
    | ok a s1 =>
      obtain ⟨got, e⟩ := a
      rw [hr] at h
      cases e with
      | some e =>
        simp only at h
        by_cases he : e = .unexpectedEof
        · rw [if_pos he] at h; cases h
        · rw [if_neg he] at h; cases h
      | none =>
        have h1 := fetchRead_limit hr
        simp only [FM.bind_def] at h
        have hk : Keeps (if beAt 1 16 got < 2 then decodeMessageSetMagic0or1 env topic part got else decodeRecordsMagic2 env topic part got) :=
          Keeps.ite (keeps_decodeLegacy env topic part got) (keeps_decodeRecordsMagic2 env topic part got)
        cases hm : (if beAt 1 16 got < 2 then decodeMessageSetMagic0or1 env topic part got else decodeRecordsMagic2 env topic part got) s1 with
        | ok o s2 =>
          rw [hm] at h
          cases h
          have := ((hk.all s1).1 o _ hm).le
          omega
        | err e s2 => rw [hm] at h; cases h
        | panic => rw [hm] at h; cases h
    | err e s1 => rw [hr] at h; cases h
    | panic => rw [hr] at h; cases h
  · rw [if_neg hx] at h; cases h

theorem messageSetLoop_round (env : FetchEnv) (topic : Bytes) (part : Int32) (size : Int) (n : Nat) (x : Int) (s : SD) :
    messageSetLoop env topic part size (n + 1) x s = carryOn (batchRound env topic part size x s) (messageSetLoop env topic part size n) := by
  rw [messageSetLoop, batchRound]
  by_cases hx : x < size
  · rw [if_pos hx, if_pos hx, FM.bind_def, FM.bind_def]
    cases hr : fetchRead 17 s with
    | ok a s1 =>
      obtain ⟨got, e⟩ := a
      cases e with
      | some e =>
        simp only
        by_cases he : e = .unexpectedEof
        · rw [if_pos he, if_pos he]; rfl
        · rw [if_neg he, if_neg he]; rfl
      | none =>
        simp only [FM.bind_def]
        cases hm : (if beAt 1 16 got < 2 then decodeMessageSetMagic0or1 env topic part got else decodeRecordsMagic2 env topic part got) s1 <;> rfl
    | err e s1 => rfl
    | panic => rfl
  · rw [if_neg hx, if_neg hx]; rfl

/-- C154: whatever a broker sends, the loop over the batches of a partition comes to an end, after at most one round for every 17 bytes of the response, and
with the result of the model.  Missing: that no more messages come out than the bytes can hold, which is not so (`C154_violated_many`); that the decompressors,
which are external, end; and that compressed messages inside compressed messages end, which the code does not bound. -/
theorem C154_batches_end_partial (env : FetchEnv) (topic : Bytes) (part : Int32) (size : Int) (offset : Int) (s : SD) :
    ∃ n r, Repeats (batchRound env topic part size) n offset s r ∧ n * 17 ≤ s.rd.limit ∧ messageSetLoop env topic part size (s.rd.limit + 1) offset s = r := by
  obtain ⟨n, r, h1, h2, h3⟩ := repeats_of_reading (loop := messageSetLoop env topic part size) (k := 17) (by decide) (messageSetLoop_round env topic part size)
    (batchRound_reads env topic part size) s.rd.limit offset s (Nat.le_refl _)
  exact ⟨n, r, h1, h2, h3 _ (by omega)⟩

/-! ## The messages of an old batch -/

/-- one round of the loop of fetch_response.go:134-197 after the first one, from the local `offset` -/
def oldRound (env : FetchEnv) (topic : Bytes) (part : Int32) (offset : Int) : FM (Int ⊕ Int) := do
  let (buf, e) ← fetchRead 12
  match e with
  | some e => FM.fail e
  | none =>
    let messageSize := beAt 4 8 buf
    let (got, e) ← fetchRead1 messageSize
    let offset := offset + 12 + got.length
    match e with
    | some e => FM.fail e
    | none =>
      if (got.length : Int) < (messageSize : Int) - 5 then pure (.inr offset)
      else do
        let more ← putLegacy env topic part (buf ++ got ++ List.replicate (messageSize - got.length) 0)
        if more then pure (.inl offset) else pure (.inr offset)

theorem oldRound_reads (env : FetchEnv) (topic : Bytes) (part : Int32) (x : Int) (s : SD) (y : Int) (s' : SD)
    (h : oldRound env topic part x s = .ok (.inl y) s') : s'.rd.limit + 12 ≤ s.rd.limit := by
  unfold oldRound at h
  rw [FM.bind_def] at h
  cases hr : fetchRead 12 s with
  | ok a s1 =>
    obtain ⟨buf, e⟩ := a
    rw [hr] at h
    cases e with
    | some e => cases h
    | none =>
      have h1 := fetchRead_limit hr
      simp only [FM.bind_def] at h
      cases hr1 : fetchRead1 (beAt 4 8 buf) s1 with
      | ok a s2 =>
        obtain ⟨got, e⟩ := a
        have h2 := (((keeps_fetchRead1 (beAt 4 8 buf)).all s1).1 _ _ hr1).le
        rw [hr1] at h
        cases e with
        | some e => cases h
        | none =>
          simp only at h
          split at h
          · cases h
          · rw [FM.bind_def] at h
            cases hp : putLegacy env topic part (buf ++ got ++ List.replicate (beAt 4 8 buf - got.length) 0) s2 with
            | ok more s3 =>
              have h3 := (((keeps_putLegacy env topic part (buf ++ got ++ List.replicate (beAt 4 8 buf - got.length) 0)).all s2).1 _ _ hp).le
              rw [hp] at h
              cases more with
              | true => cases h; omega
              | false => cases h
            | err e s3 => rw [hp] at h; cases h
            | panic => rw [hp] at h; cases h
      | err e s2 => rw [hr1] at h; cases h
      | panic => rw [hr1] at h; cases h
  | err e s1 => rw [hr] at h; cases h
  | panic => rw [hr] at h; cases h

theorem legacyLoop_round (env : FetchEnv) (topic : Bytes) (part : Int32) (n : Nat) (x : Int) (s : SD) :
    legacyLoop env topic part (n + 1) x s = carryOn (oldRound env topic part x s) (legacyLoop env topic part n) := by
  rw [legacyLoop, oldRound]
  rw [FM.bind_def, FM.bind_def]
  cases hr : fetchRead 12 s with
  | ok a s1 =>
    obtain ⟨buf, e⟩ := a
    cases e with
    | some e => rfl
    | none =>
      simp only [FM.bind_def]
      cases hr1 : fetchRead1 (beAt 4 8 buf) s1 with
      | ok a s2 =>
        obtain ⟨got, e⟩ := a
        cases e with
        | some e => rfl
        | none =>
          simp only
          by_cases hc : (got.length : Int) < (beAt 4 8 buf : Int) - 5
          · rw [if_pos hc, if_pos hc]; rfl
          · rw [if_neg hc, if_neg hc, FM.bind_def, FM.bind_def]
            cases hp : putLegacy env topic part (buf ++ got ++ List.replicate (beAt 4 8 buf - got.length) 0) s2 with
            | ok more s3 => cases more <;> rfl
            | err e s3 => rfl
            | panic => rfl
      | err e s2 => rfl
      | panic => rfl
  | err e s1 => rfl
  | panic => rfl

/-- C154: the same for the loop over the messages of formats 0 and 1, which takes at least 12 bytes a round.  Missing: the same as there. -/
theorem C154_old_end_partial (env : FetchEnv) (topic : Bytes) (part : Int32) (offset : Int) (s : SD) :
    ∃ n r, Repeats (oldRound env topic part) n offset s r ∧ n * 12 ≤ s.rd.limit ∧ legacyLoop env topic part (s.rd.limit + 1) offset s = r := by
  obtain ⟨n, r, h1, h2, h3⟩ := repeats_of_reading (loop := legacyLoop env topic part) (k := 12) (by decide) (legacyLoop_round env topic part)
    (oldRound_reads env topic part) s.rd.limit offset s (Nat.le_refl _)
  exact ⟨n, r, h1, h2, h3 _ (by omega)⟩

/-! ## One record many times

`binary.Varint` answers a number of more than 64 bits with a negative length (here -10), and `DecodeToRecord` adds that to its position
(record.go:166-170).  So a record can be 0 bytes long.
-/

/-- a record of 20 bytes whose number of headers has too many bits -/
def endlessRecord : Bytes :=
  [38, 0, 0, 0, 8, 97, 98, 99, 100, 0] ++ [128, 128, 128, 128, 128, 128, 128, 128, 128, 2]

/-- a batch of 81 bytes which holds that record and claims to hold `n` -/
def endlessBatch (n : Nat) : Bytes :=
  ([0, 0, 0, 0, 0, 0, 0, 0] ++ [0, 0, 0, 69] ++ [0, 0, 0, 0] ++ [2]) ++
    ([0, 0, 0, 0] ++ [0, 0] ++ [0, 0, 0, 0] ++ List.replicate 8 0 ++ List.replicate 8 0 ++ List.replicate 8 255 ++ [0, 0] ++ [0, 0, 0, 0] ++ (Kafka.be 4 n ++ [])) ++
    endlessRecord

/-- the message that is delivered -/
def endlessMessage (topic : Bytes) (part : Int32) : FullMessage :=
  { topicName := topic, partitionID := part, error := none, message := some { magicByte := 2, key := some [97, 98, 99, 100] } }

example : (endlessBatch 4000000000).length = 81 := by decide

/-- what a record is decoded to that has the length 0 -/
theorem endless_decodes : decodeToRecord endlessRecord = .ok ({ key := some [97, 98, 99, 100] }, 0) := by decide +kernel

theorem putRecords_endless (env : FetchEnv) (hacc : ∀ n, env.accept n = true) (hst : env.startOffset = 0) (topic : Bytes) (part : Int32) :
    ∀ (n : Nat) (s : SD), putRecords env topic part 0 0 n endlessRecord 0 s = .ok () (s.deliver (List.replicate n (endlessMessage topic part))) := by
  intro n
  induction n with
  | zero => intro s; rw [List.replicate_zero, SD.deliver_nil]; rfl
  | succ n ih =>
    intro s
    rw [putRecords]
    have hs : sliceFrom endlessRecord 0 = .ok endlessRecord := by decide +kernel
    rw [hs]
    simp only
    rw [endless_decodes]
    simp only
    rw [FM.bind_def, filterAndPut_ok env hacc]
    simp only
    rw [show (0 : Int) + 0 = 0 from rfl, ih, SD.deliver_deliver]
    have hw : wanted env topic part [recordMessage 0 0 { key := some [97, 98, 99, 100] }] = [endlessMessage topic part] := by
      unfold wanted
      rw [List.filter_cons, if_pos (by rw [hst]; decide)]
      rfl
    rw [hw]
    rfl

set_option maxRecDepth 20000 in
/-- one round goes on for this batch, and the next one is done -/
example : ∃ r, Repeats (batchRound {} [116] 3 81) 1 0 { rd := ⟨[endlessBatch 1], 81, .eof⟩ } r := ⟨_, .again rfl (.done rfl)⟩

/-- the first 17 bytes of the batch, and the 44 after them -/
def endlessHead : Bytes := [0, 0, 0, 0, 0, 0, 0, 0] ++ [0, 0, 0, 69] ++ [0, 0, 0, 0] ++ [2]
def endlessFixed (n : Nat) : Bytes :=
  [0, 0, 0, 0] ++ [0, 0] ++ [0, 0, 0, 0] ++ List.replicate 8 0 ++ List.replicate 8 0 ++ List.replicate 8 255 ++ [0, 0] ++ [0, 0, 0, 0] ++ (Kafka.be 4 n ++ [])

theorem endlessFixed_length (n : Nat) : (endlessFixed n).length = 44 := by simp [endlessFixed]

theorem endlessBatch_eq (n : Nat) : endlessBatch n = endlessHead ++ (endlessFixed n ++ endlessRecord) := by
  rw [← List.append_assoc]; rfl

theorem endless_count (n : Nat) (hn : n < 2 ^ 32) : beAt 4 57 (endlessHead ++ endlessFixed n) = n := by
  have h := beAt_append 4 57 (endlessHead ++ ([0, 0, 0, 0] ++ [0, 0] ++ [0, 0, 0, 0] ++ List.replicate 8 0 ++ List.replicate 8 0 ++ List.replicate 8 255 ++ [0, 0] ++ [0, 0, 0, 0]))
    (Kafka.be 4 n) [] (by decide) (by simp)
  rw [List.append_assoc] at h
  rw [endlessFixed, h, beVal_be]
  exact Nat.mod_eq_of_lt (by omega)

theorem endless_batch (env : FetchEnv) (hacc : ∀ n, env.accept n = true) (hst : env.startOffset = 0) (topic : Bytes) (part : Int32) (n : Nat) (h0 : 0 < n)
    (hn : n < 2 ^ 32) (s : SD) (hav : s.avail = endlessFixed n ++ endlessRecord) :
    ∃ s1, decodeRecordsMagic2 env topic part endlessHead s = .ok 64 (s1.deliver (List.replicate n (endlessMessage topic part))) ∧ Adv 64 s s1 := by
  unfold decodeRecordsMagic2
  have hlen : 44 ≤ s.avail.length := by rw [hav, List.length_append, endlessFixed_length]; omega
  obtain ⟨s1, h1, h2⟩ := fetchRead_ok 44 s hlen
  have hgot : s.avail.take 44 = endlessFixed n := by rw [hav, List.take_left' (endlessFixed_length n)]
  have hav1 : s1.avail = endlessRecord := by rw [h2.avail, hav, List.drop_left' (endlessFixed_length n)]
  rw [FM.bind_def, h1]
  simp only [hgot]
  rw [endless_count n hn, if_neg (by omega)]
  have f1 : (UInt64.ofNat (beAt 8 0 (endlessHead ++ endlessFixed n))).toInt64 = 0 := by
    have : beAt 8 0 (endlessHead ++ endlessFixed n) = 0 := rfl
    rw [this]; rfl
  have f2 : beAt 4 8 (endlessHead ++ endlessFixed n) = 69 := rfl
  have f3 : beAt 2 21 (endlessHead ++ endlessFixed n) = 0 := rfl
  have f4 : beAt 8 27 (endlessHead ++ endlessFixed n) = 0 := rfl
  rw [f1, f2, f3, f4]
  obtain ⟨s2, g1, g2⟩ := fetchReadUpTo_ok 20 s1 (.inl (by rw [hav1]; decide))
  rw [hav1] at g1 g2
  have hd : decodeBatchRecords env topic part 0 (UInt64.ofNat 0) (Int8.ofNat (0 % 4)) n (((69 : Nat) : Int) - 49) s1
      = .ok () (s2.deliver (List.replicate n (endlessMessage topic part))) := by
    unfold decodeBatchRecords
    rw [show (((69 : Nat) : Int) - 49).toNat = 20 from rfl, g1]
    simp only
    have hu : uncompress env (Int8.ofNat (0 % 4)) (endlessRecord.take 20) none = .ok endlessRecord := by
      unfold uncompress; rfl
    rw [hu]
    exact putRecords_endless env hacc hst topic part n s2
  refine ⟨s2, ?_, h2.trans g2⟩
  rw [FM.bind_def, hd]
  rfl

/-- C154 is not so for the messages: from 81 bytes a broker makes the decoder deliver one message as often as it likes, up to 2³²-1 times. -/
theorem C154_violated_many (env : FetchEnv) (hacc : ∀ n, env.accept n = true) (hst : env.startOffset = 0) (topic : Bytes) (part : Int32) (n : Nat) (h0 : 0 < n)
    (hn : n < 2 ^ 32) :
    ∃ s', decodeMessageSet env topic part 81 { rd := ⟨[endlessBatch n], 81, .eof⟩ } = .ok () s' ∧
      s'.delivered = List.replicate n (endlessMessage topic part) := by
  have hs0 : SD.avail { rd := ⟨[endlessBatch n], 81, .eof⟩ } = endlessHead ++ (endlessFixed n ++ endlessRecord) := by
    rw [← endlessBatch_eq]
    have : (endlessBatch n).length = 81 := by rw [endlessBatch_eq, List.length_append, List.length_append, endlessFixed_length]; rfl
    unfold SD.avail Rdr.flat
    simp only [List.flatten_cons, List.flatten_nil, List.append_nil]
    exact List.take_of_length_le (by omega)
  obtain ⟨s1, h1, h2⟩ := fetchRead_ok 17 { rd := ⟨[endlessBatch n], 81, .eof⟩ } (by rw [hs0]; simp [endlessHead])
  have hgot : (SD.avail { rd := ⟨[endlessBatch n], 81, .eof⟩ }).take 17 = endlessHead := by rw [hs0]; exact List.take_left' rfl
  rw [hgot] at h1
  have hav1 : s1.avail = endlessFixed n ++ endlessRecord := by rw [h2.avail, hs0]; exact List.drop_left' rfl
  obtain ⟨s2, g1, g2⟩ := endless_batch env hacc hst topic part n h0 hn s1 hav1
  have hl : messageSetLoop env topic part (81 : Int32).toInt 82 0 { rd := ⟨[endlessBatch n], 81, .eof⟩ }
      = .ok () (s2.deliver (List.replicate n (endlessMessage topic part))) := by
    rw [messageSetLoop, if_pos (by decide), FM.bind_def, h1]
    simp only
    rw [if_neg (by decide), FM.bind_def, g1]
    simp only
    rw [messageSetLoop, if_neg (by decide)]
    rfl
  refine ⟨s2.deliver (List.replicate n (endlessMessage topic part)), ?_, ?_⟩
  · unfold decodeMessageSet FM.after
    simp only
    rw [hl]
    have hone : (s2.deliver (List.replicate n (endlessMessage topic part))).hasOne = true := by
      obtain ⟨m, rfl⟩ : ∃ m, n = m + 1 := ⟨n - 1, by omega⟩
      simp [SD.deliver, List.replicate_succ]
    simp [messageSetFix, hone]
  · unfold SD.deliver
    simp only
    rw [g2.delivered, h2.delivered]
    rfl

end Healer
