import Verif.Props.Ends
import Verif.Props.Fetch

/-!
C18 for all data: however the network cuts the record data of a partition, as long as the decoder comes to no batch of the old formats, the outcome is the same.
-/

namespace Healer

/-- Two decoders that differ only in how the bytes to come are cut. -/
structure Alike (s t : SD) : Prop where
  flat : s.rd.flat = t.rd.flat
  limit : s.rd.limit = t.rd.limit
  fin : s.rd.fin = t.rd.fin
  offset : s.offset = t.offset
  hasOne : s.hasOne = t.hasOne
  delivered : s.delivered = t.delivered

/-- The same outcome: the same value or error, the same messages delivered, and the same bytes left; or a crash of both. -/
inductive AlikeRes {α : Type} : Res α → Res α → Prop
  | ok {a s t} (h : Alike s t) : AlikeRes (.ok a s) (.ok a t)
  | err {e s t} (h : Alike s t) : AlikeRes (.err e s) (.err e t)
  | panic : AlikeRes .panic .panic

/-- The outcome does not depend on how the bytes are cut. -/
def Steady {α : Type} (m : FM α) : Prop := ∀ s t, Alike s t → AlikeRes (m s) (m t)

theorem Steady.pure {α : Type} (a : α) : Steady (Pure.pure a : FM α) := fun _ _ h => .ok h
theorem Steady.fail {α : Type} (e : Err) : Steady (FM.fail e : FM α) := fun _ _ h => .err h

theorem AlikeRes.bind {α β : Type} {m : FM α} {f g : α → FM β} {s t : SD} (h : AlikeRes (m s) (m t))
    (hf : ∀ a s' t', m s = .ok a s' → Alike s' t' → AlikeRes (f a s') (g a t')) : AlikeRes ((m >>= f) s) ((m >>= g) t) := by
  rw [FM.bind_def, FM.bind_def]
  generalize hr : m s = r at h
  generalize m t = r' at h
  cases h with
  | ok h => exact hf _ _ _ hr h
  | err h => exact .err h
  | panic => exact .panic

theorem Steady.bind {α β : Type} {m : FM α} {f : α → FM β} (h1 : Steady m) (h2 : ∀ a, Steady (f a)) : Steady (m >>= f) :=
  fun s t h => AlikeRes.bind (h1 s t h) fun a s' t' _ h' => h2 a s' t' h'

theorem Steady.ite {α : Type} {p : Prop} [Decidable p] {m n : FM α} (h1 : Steady m) (h2 : Steady n) : Steady (if p then m else n) := by
  split
  · exact h1
  · exact h2

theorem steady_fetchRead (n : Nat) : Steady (fetchRead n) := by
  intro s t h
  unfold fetchRead
  by_cases hc : n ≤ (s.rd.flat.take s.rd.limit).length
  · obtain ⟨r, h1, h2, h3, h4⟩ := readFull_ok n s.rd hc
    obtain ⟨r', g1, g2, g3, g4⟩ := readFull_ok n t.rd (by rw [← h.flat, ← h.limit]; exact hc)
    rw [h1, g1, h.flat]
    exact .ok ⟨by simp only [h2, g2, h.flat], by simp only [h3, g3, h.limit], by simp only [h4, g4, h.fin], by simp only [h.offset], h.hasOne, h.delivered⟩
  · obtain ⟨r, h1, h2, h3, h4⟩ := readFull_short n s.rd (by omega)
    obtain ⟨r', g1, g2, g3, g4⟩ := readFull_short n t.rd (by rw [← h.flat, ← h.limit]; omega)
    rw [h1, g1, h.flat, h.limit, h.fin]
    exact .ok ⟨by simp only [h2, g2, h.flat, h.limit], by simp only [h3, g3, h.limit, h.flat], by simp only [h4, g4, h.fin], by simp only [h.offset], h.hasOne, h.delivered⟩

theorem steady_fetchReadUpTo (n : Nat) : Steady (fetchReadUpTo n) := by
  intro s t h
  unfold fetchReadUpTo
  obtain ⟨r, h1, h2, h3, h4⟩ := readUpTo_spec n s.rd
  obtain ⟨r', g1, g2, g3, g4⟩ := readUpTo_spec n t.rd
  rw [h1, g1, h.flat, h.limit, h.fin]
  exact .ok ⟨by simp only [h2, g2, h.flat, h.limit], by simp only [h3, g3, h.limit, h.flat], by simp only [h4, g4, h.fin], by simp only [h.offset], h.hasOne, h.delivered⟩

theorem steady_filterAndPut (env : FetchEnv) (topic : Bytes) (part : Int32) (m : Message) : Steady (filterAndPutMessage env topic part m) := by
  intro s t h
  unfold filterAndPutMessage putMessage
  rw [h.delivered]
  by_cases ho : m.offset ≥ env.startOffset
  · rw [if_pos ho, if_pos ho]
    by_cases ha : env.accept t.delivered.length = true
    · rw [if_pos ha, if_pos ha]
      exact .ok ⟨h.flat, h.limit, h.fin, h.offset, rfl, rfl⟩
    · rw [if_neg ha, if_neg ha]
      exact .err h
  · rw [if_neg ho, if_neg ho]
    exact .ok h

theorem steady_putRecords (env : FetchEnv) (topic : Bytes) (part : Int32) (bo : Int64) (bt : UInt64) :
    ∀ (n : Nat) (data : Bytes) (off : Int), Steady (putRecords env topic part bo bt n data off)
  | 0, _, _ => Steady.pure ()
  | n + 1, data, off => by
    intro s t h
    simp only [putRecords]
    cases sliceFrom data off with
    | ok d =>
      simp only
      cases decodeToRecord d with
      | ok x => exact Steady.bind (steady_filterAndPut env topic part _) (fun _ => steady_putRecords env topic part bo bt n data _) s t h
      | err e =>
        simp only
        split
        · exact .ok h
        · exact .err h
      | panic => exact .panic
    | err e => exact .err h
    | panic => exact .panic

theorem steady_batchRecords (env : FetchEnv) (topic : Bytes) (part : Int32) (bo : Int64) (bt : UInt64) (c : Int8) (count : Nat) (size : Int) :
    Steady (decodeBatchRecords env topic part bo bt c count size) := by
  intro s t h
  unfold decodeBatchRecords
  have h1 := steady_fetchReadUpTo size.toNat s t h
  generalize fetchReadUpTo size.toNat s = r at h1
  generalize fetchReadUpTo size.toNat t = r' at h1
  cases h1 with
  | @ok a s' t' h' =>
    obtain ⟨data, io⟩ := a
    simp only
    cases uncompress env c data io with
    | error e =>
      have he : (fetchEnd env s' && s'.hasOne) = (fetchEnd env t' && t'.hasOne) := by
        unfold fetchEnd
        rw [h'.offset, h'.hasOne]
      simp only
      rw [he]
      split
      · exact .ok h'
      · exact .err h'
    | ok raw => exact steady_putRecords env topic part bo bt count raw 0 s' t' h'
  | err h' => exact .err h'
  | panic => exact .panic

theorem steady_records (env : FetchEnv) (topic : Bytes) (part : Int32) (header17 : Bytes) : Steady (decodeRecordsMagic2 env topic part header17) := by
  unfold decodeRecordsMagic2
  refine Steady.bind (steady_fetchRead 44) fun x => ?_
  obtain ⟨got, e⟩ := x
  cases e with
  | some e =>
    simp only
    split
    · exact Steady.pure _
    · exact Steady.fail _
  | none =>
    simp only
    split
    · exact Steady.pure _
    · exact Steady.bind (steady_batchRecords _ _ _ _ _ _ _ _) fun _ => Steady.pure _

/-- The decoder comes from one place to another, by rounds of its loop over the batches. -/
inductive Comes (env : FetchEnv) (topic : Bytes) (part : Int32) (size : Int) : Int → SD → Int → SD → Prop
  | here {x s} : Comes env topic part size x s x s
  | on {x s y s' z s''} : batchRound env topic part size x s = .ok (.inl y) s' → Comes env topic part size y s' z s'' → Comes env topic part size x s z s''

/-- No batch to which the decoder comes is of format 0 or 1 (the byte at position 16 says so). -/
def NoOld (env : FetchEnv) (topic : Bytes) (part : Int32) (size x : Int) (s : SD) : Prop :=
  ∀ y t, Comes env topic part size x s y t → 17 ≤ t.avail.length → ¬ beAt 1 16 t.avail < 2

theorem beAt_take (w off n : Nat) (b : Bytes) (h : off + w ≤ n) : beAt w off (b.take n) = beAt w off b := by
  unfold beAt
  rw [List.drop_take, List.take_take, Nat.min_eq_left (by omega)]

theorem alike_batchRound (env : FetchEnv) (topic : Bytes) (part : Int32) (size x : Int) (s t : SD) (h : Alike s t) (hn : NoOld env topic part size x s) :
    AlikeRes (batchRound env topic part size x s) (batchRound env topic part size x t) := by
  unfold batchRound
  by_cases hx : x < size
  · rw [if_pos hx]
    refine AlikeRes.bind (steady_fetchRead 17 s t h) ?_
    rintro ⟨got, e⟩ s' t' hs h'
    cases e with
    | some e =>
      simp only
      split
      · exact .ok h'
      · exact .err h'
    | none =>
      have hlen : 17 ≤ s.avail.length := by
        apply Nat.le_of_not_lt
        intro hlt
        obtain ⟨r', g1, -⟩ := readFull_short 17 s.rd hlt
        unfold fetchRead at hs
        rw [g1] at hs
        cases hs
      have hgot : got = s.avail.take 17 := by
        obtain ⟨s2, g1, -⟩ := fetchRead_ok 17 s hlen
        rw [g1] at hs
        cases hs
        rfl
      have hold : ¬ beAt 1 16 got < 2 := by
        rw [hgot, beAt_take 1 16 17 _ (by omega)]
        exact hn x s .here hlen
      simp only [if_neg hold]
      exact AlikeRes.bind (steady_records env topic part got s' t' h') fun a s2 t2 _ h2 => .ok h2
  · rw [if_neg hx]
    exact .ok h

theorem alike_loop (env : FetchEnv) (topic : Bytes) (part : Int32) (size : Int) : ∀ (n : Nat) (x : Int) (s t : SD), Alike s t → NoOld env topic part size x s →
    AlikeRes (messageSetLoop env topic part size n x s) (messageSetLoop env topic part size n x t)
  | 0, _, _, _, h, _ => .err h
  | n + 1, x, s, t, h, hn => by
    rw [messageSetLoop_round, messageSetLoop_round]
    have h1 := alike_batchRound env topic part size x s t h hn
    generalize hr : batchRound env topic part size x s = r at h1
    generalize batchRound env topic part size x t = r' at h1
    cases h1 with
    | @ok a s' t' h' =>
      cases a with
      | inr a => exact .ok h'
      | inl y => exact alike_loop env topic part size n y s' t' h' fun z u hz => hn z u (.on hr hz)
    | err h' => exact .err h'
    | panic => exact .panic

/-- C18 for the record data of a partition, whatever they are: complete, cut, damaged or nonsense.  If two connections hand out the same bytes, cut in different
ways, then the decoder delivers the same messages, ends with the same error or none, and leaves the same bytes; provided the decoder comes to no batch of
format 0 or 1.  Missing for the full statement: those formats, for which it fails (`C18_violated_old`),
and the fields before the record data, for which it fails (`C18_violated_split_header`). -/
theorem C18_records_partial (env : FetchEnv) (topic : Bytes) (part size : Int32) (s t : SD) (h : Alike s t) (hn : NoOld env topic part size.toInt 0 s) :
    AlikeRes (decodeMessageSet env topic part size s) (decodeMessageSet env topic part size t) := by
  unfold decodeMessageSet FM.after
  simp only
  have h1 := alike_loop env topic part size.toInt (s.rd.limit + 1) 0 s t h hn
  rw [← h.limit]
  generalize messageSetLoop env topic part size.toInt (s.rd.limit + 1) 0 s = r at h1
  generalize messageSetLoop env topic part size.toInt (s.rd.limit + 1) 0 t = r' at h1
  have hfix : ∀ s t : SD, Alike s t → ∀ e, messageSetFix s e = messageSetFix t e := by
    intro s t h e
    unfold messageSetFix
    rw [h.hasOne]
  cases h1 with
  | @ok a s' t' h' =>
    simp only
    rw [hfix s' t' h']
    cases messageSetFix t' none with
    | none => exact .ok h'
    | some e => exact .err h'
  | @err e s' t' h' =>
    simp only
    rw [hfix s' t' h']
    cases messageSetFix t' (some e) with
    | none => exact .ok h'
    | some e => exact .err h'
  | panic => exact .panic

/-- 40 bytes with format 2 in one piece, and in two: the fixed part of the batch is not complete -/
example : Alike { rd := ⟨[List.replicate 40 2], 40, .eof⟩ } { rd := ⟨[List.replicate 20 2, List.replicate 20 2], 40, .eof⟩ } :=
  ⟨by decide, rfl, rfl, rfl, rfl, rfl⟩

set_option maxRecDepth 20000 in
example : NoOld {} [116] 3 40 0 { rd := ⟨[List.replicate 40 2], 40, .eof⟩ } := by
  have h1 : batchRound {} [116] 3 40 0 { rd := ⟨[List.replicate 40 2], 40, .eof⟩ } = .ok (.inl 40) { rd := ⟨[[]], 0, .eof⟩, offset := 40 } := by rfl
  intro y t h hl
  cases h with
  | here => decide +kernel
  | on h2 h3 =>
    rw [h1] at h2
    cases h2
    cases h3 with
    | here => simp [SD.avail, Rdr.flat] at hl
    | on h4 h5 =>
      have : batchRound {} [116] 3 40 40 { rd := ⟨[[]], 0, .eof⟩, offset := 40 } = .ok (.inr ()) { rd := ⟨[[]], 0, .eof⟩, offset := 40 } := rfl
      rw [this] at h4
      cases h4

/-- C18 fails for messages of the old formats: when the network hands out the last three bytes of a message separately, the message is delivered with zeros in their
place; when it hands out the last seven separately, the message is not delivered. -/
theorem C18_violated_old :
    let r := sampleResponse (sampleLegacy.flatMap Kafka.legacyMessage)
    let first : Option Kafka.Delivered := some ⟨[116], 3, ⟨5, 77, [], [1, 2, 3, 4, 5, 6, 7, 8], []⟩⟩
    deliveredOn {} r.length [r] = some [first, some ⟨[116], 3, ⟨6, 78, [], [1, 2, 3, 4, 5, 6, 7, 8], []⟩⟩] ∧
    deliveredOn {} r.length [r.take (r.length - 3), r.drop (r.length - 3)] = some [first, some ⟨[116], 3, ⟨6, 78, [], [1, 2, 3, 4, 5, 0, 0, 0], []⟩⟩] ∧
    deliveredOn {} r.length [r.take (r.length - 7), r.drop (r.length - 7)] = some [first] := by
  decide +kernel

end Healer
