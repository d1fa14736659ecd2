import Verif.Props.Always2
import Verif.Props.Always5
import Verif.Props.Position
import Verif.Props.Timers
import Verif.Props.Tools2
import Verif.Props.Fetch
import Verif.Props.Record
import Verif.Props.Dispatch

/-!
# Faults shown for all inputs: records, positions, timers and tools

As `Verif.Props.Always`: the faults that the other modules show on samples, for all inputs of their kind.
-/

namespace Healer

/-! ## C09 -/

/-- the bytes of a nil key when the offset delta takes more than one byte -/
theorem encodeKey_nil (r : Record) (hk : r.key = none) (hd : ¬ (-64 ≤ r.offsetDelta.toInt ∧ r.offsetDelta.toInt ≤ 63)) :
    ∃ zs, r.encodeKey = Kafka.varint (-1) ++ (Kafka.varint 0 ++ zs) := by
  have hl : 2 ≤ (putVarint r.offsetDelta.toInt).length := by
    refine Decidable.byContradiction fun hc => ?_
    have h1 := putUvarint_length_pos (zigzag r.offsetDelta.toInt)
    unfold putVarint at hc
    have hlt : ¬ zigzag r.offsetDelta.toInt < 128 := by
      unfold zigzag; split <;> omega
    rw [putUvarint_unfold, if_neg hlt] at hc
    have := putUvarint_length_pos (zigzag r.offsetDelta.toInt / 128)
    simp only [List.length_cons] at hc
    omega
  obtain ⟨n, hn⟩ : ∃ n, (putVarint r.offsetDelta.toInt).length = n + 2 := ⟨_, (Nat.sub_add_cancel hl).symm⟩
  have e : putVarint (-1) = [1] := by decide
  have e1 : Kafka.varint (-1) = [1] := by decide
  have e0 : Kafka.varint 0 = [0] := by decide
  unfold Record.encodeKey
  simp only [hk, e, e1, e0, hn]
  exact ⟨_, rfl⟩

/-- A read that can only yield results with a property, whatever precedes and follows. -/
def CGives {α : Type} (c : Cur α) (enc : Bytes) (P : α → Prop) : Prop :=
  ∀ pre rest x n, c (pre ++ (enc ++ rest)) (pre.length : Int) = .ok (x, n) → P x

theorem CReads.bind_gives {α β : Type} {m : Cur α} {f : α → Cur β} {e1 e2 : Bytes} {a : α} {P : β → Prop}
    (h1 : CReads m e1 a) (h2 : CGives (f a) e2 P) : CGives (m >>= f) (e1 ++ e2) P := by
  intro pre rest x n h
  rw [Cur.bind_def, List.append_assoc, h1 pre (e2 ++ rest)] at h
  have := h2 (pre ++ e1) rest x n
  simp only [List.append_assoc, List.length_append] at this h
  exact this h

theorem CGives.anyhow {α β : Type} {m : Cur α} {f : α → Cur β} {e : Bytes} {P : β → Prop}
    (h : ∀ a p off x n, f a p off = .ok (x, n) → P x) : CGives (m >>= f) e P := by
  intro pre rest x n hx
  rw [Cur.bind_def] at hx
  cases hm : m (pre ++ (e ++ rest)) (pre.length : Int) with
  | ok y => rw [hm] at hx; exact h y.1 _ y.2 x n hx
  | err e => rw [hm] at hx; cases hx
  | panic => rw [hm] at hx; cases hx

/-- C09 fails for every record without key whose offset delta takes more than one byte: whatever its value, no value is
read back. -/
theorem C09_violated_every_nil_key (r r' : Record) (n : Int) (rest : Bytes) (hk : r.key = none)
    (hd : ¬ (-64 ≤ r.offsetDelta.toInt ∧ r.offsetDelta.toInt ≤ 63)) (hs : r.encodeBody.length < 2 ^ 63)
    (h : decodeToRecord (r.encode ++ rest) = .ok (r', n)) : r'.value = none ∧ r'.key = none := by
  obtain ⟨zs, hz⟩ := encodeKey_nil r hk hd
  have hb : ∃ tl, r.encodeBody = Kafka.int8 r.attributes.toInt ++ (Kafka.varint r.timestampDelta.toInt ++
      (Kafka.varint r.offsetDelta.toInt ++ (Kafka.varint (-1) ++ (Kafka.varint 0 ++ tl)))) := by
    refine ⟨zs ++ (putVarint (r.value.getD []).length ++ (r.value.getD [] ++
      (putVarint r.headers.length ++ r.headers.flatMap RecordHeader.encode))), ?_⟩
    unfold Record.encodeBody
    rw [hz, putVarint_eq, putVarint_eq r.offsetDelta.toInt, int8_eq]
    simp only [List.append_assoc]
  obtain ⟨tl, hb⟩ := hb
  have hg : CGives decodeRecordFields r.encodeBody fun x => x.value = none ∧ x.key = none := by
    rw [hb]
    unfold decodeRecordFields
    have ht := r.timestampDelta.toInt_lt
    have ht' := r.timestampDelta.le_toInt
    have ho := r.offsetDelta.toInt_lt
    have ho' := r.offsetDelta.le_toInt
    refine CReads.bind_gives (creads_int8 _) (CReads.bind_gives (creads_varint _ (by omega)) (CReads.bind_gives (creads_varint _ (by omega))
      (CReads.bind_gives (creads_varint (-1) (by omega)) ?_)))
    refine CReads.bind_gives (e1 := []) (creads_ifPositive none) (CReads.bind_gives (creads_varint 0 (by omega)) ?_)
    refine CReads.bind_gives (e1 := []) (a := none) (CReads.pure none) ?_
    refine CGives.anyhow fun c p off x n hx => ?_
    rw [Cur.bind_def] at hx
    cases hf : Cur.forInt c (Cur.call (Cur.run decodeRecordHeader)) p off with
    | ok y => rw [hf] at hx; cases hx; exact ⟨rfl, rfl⟩
    | err e => rw [hf] at hx; cases hx
    | panic => rw [hf] at hx; cases hx
  have hl := (by rw [hb]; simp; omega : 0 < r.encodeBody.length)
  unfold Record.encode at h
  rw [putVarint_eq] at h
  unfold decodeToRecord Cur.run at h
  have hv := creads_varint_len r.encodeBody.length hs [] (r.encodeBody ++ rest)
  rw [List.nil_append, List.length_nil] at hv
  rw [List.append_assoc, Cur.bind_def, show (0 : Int) = ((0 : Nat) : Int) from rfl, hv] at h
  simp only at h
  rw [if_neg (by omega), Cur.bind_def] at h
  unfold Cur.peekRest at h
  rw [Nat.zero_add, sliceFrom_append] at h
  simp only at h
  rw [if_neg (by rw [List.length_append]; omega)] at h
  exact hg _ _ _ _ h

example : decodeToRecord (⟨0, 0, 300, none, some [0], []⟩ : Record).encode = .ok (⟨0, 0, 300, none, none, [⟨[], []⟩]⟩, 10) := by decide +kernel

/-! ## C15 -/

/-- A read that crashes, whatever precedes and follows. -/
def CCrashes {α : Type} (c : Cur α) (enc : Bytes) : Prop :=
  ∀ pre rest, c (pre ++ (enc ++ rest)) (pre.length : Int) = .panic

theorem CReads.bind_crashes {α β : Type} {m : Cur α} {f : α → Cur β} {e1 e2 : Bytes} {a : α}
    (h1 : CReads m e1 a) (h2 : CCrashes (f a) e2) : CCrashes (m >>= f) (e1 ++ e2) := by
  intro pre rest
  rw [Cur.bind_def, List.append_assoc, h1 pre (e2 ++ rest)]
  have := h2 (pre ++ e1) rest
  simp only [List.append_assoc, List.length_append] at this ⊢
  exact this

theorem CCrashes.bind {α β : Type} {m : Cur α} {f : α → Cur β} {e1 : Bytes} (e2 : Bytes)
    (h1 : CCrashes m e1) : CCrashes (m >>= f) (e1 ++ e2) := by
  intro pre rest
  rw [Cur.bind_def, List.append_assoc, h1 pre (e2 ++ rest)]

theorem CCrashes.call {α : Type} {c : Cur α} {e : Bytes} (h : CCrashes c e) : CCrashes (Cur.call (Cur.run c)) e := by
  intro pre rest
  have := h [] rest
  rw [List.nil_append, List.length_nil] at this
  unfold Cur.call Cur.run
  rw [sliceFrom_append]
  simp only
  rw [show (0 : Int) = ((0 : Nat) : Int) from rfl, this]

/-- `make([]byte, -1)` -/
theorem rdBytes_negative (e : Bytes) : CCrashes (rdBytes (-1)) e := by
  intro pre rest
  unfold rdBytes sliceTo
  rw [if_neg (by omega)]

theorem crashes_recordHeader (k : Bytes) (hk : k.length < 2 ^ 63) : CCrashes decodeRecordHeader (Kafka.recordHeader (k, none)) := by
  have e : Kafka.recordHeader (k, none) = Kafka.varint k.length ++ (k ++ (Kafka.varint (-1) ++ ([] ++ []))) := by
    simp [Kafka.recordHeader, Kafka.varintBytes]
  rw [e]
  exact CReads.bind_crashes (creads_varint_len k.length hk) (CReads.bind_crashes (reads_rdBytes k _ rfl)
    (CReads.bind_crashes (creads_varint (-1) (by omega)) (CCrashes.bind [] (rdBytes_negative []))))

theorem crashes_recordHeaders (hs : List (Bytes × Option Bytes)) (hl : (hs.flatMap Kafka.recordHeader).length < 2 ^ 63)
    (hn : ∃ h ∈ hs, h.2 = none) :
    CCrashes (Cur.forN hs.length (Cur.call (Cur.run decodeRecordHeader))) (hs.flatMap Kafka.recordHeader) := by
  induction hs with
  | nil => obtain ⟨h, hm, _⟩ := hn; cases hm
  | cons h hs ih =>
    rw [List.flatMap_cons] at hl ⊢
    rw [List.length_append] at hl
    rw [List.length_cons]
    unfold Cur.forN
    obtain ⟨k, v⟩ := h
    cases v with
    | none =>
      refine CCrashes.bind _ (CCrashes.call (crashes_recordHeader k ?_))
      simp only [Kafka.recordHeader, List.length_append] at hl; omega
    | some v =>
      refine CReads.bind_crashes (CReads.call (CReads.run (creads_recordHeader (k, some v) (by simp) (by omega)))) ?_
      have hn' : ∃ h ∈ hs, h.2 = none := by
        obtain ⟨x, hm, hx⟩ := hn
        rcases List.mem_cons.1 hm with rfl | hm
        · cases hx
        · exact ⟨x, hm, hx⟩
      have := CCrashes.bind (f := fun bs => Pure.pure ((⟨k, v⟩ : RecordHeader) :: bs)) [] (ih (by omega) hn')
      rw [List.append_nil] at this
      exact this

/-- A record with a header whose value is null, within the limits of the format. -/
structure NullHeader (s : Kafka.Record) : Prop where
  attributes : -2 ^ 7 ≤ s.attributes ∧ s.attributes < 2 ^ 7
  timestamp : -2 ^ 63 ≤ s.timestampDelta ∧ s.timestampDelta < 2 ^ 63
  offset : -2 ^ 31 ≤ s.offsetDelta ∧ s.offsetDelta < 2 ^ 31
  header : ∃ h ∈ s.headers, h.2 = none
  size : (Kafka.recordBody s).length < 2 ^ 63

theorem record_crashes (s : Kafka.Record) (hs : NullHeader s) (rest : Bytes) :
    decodeToRecord (Kafka.record s ++ rest) = .panic := by
  have hsz := hs.size
  have hpos := recordBody_pos s
  have hf : CCrashes decodeRecordFields (Kafka.recordBody s) := by
    have hsz' := hsz
    simp only [Kafka.recordBody, List.length_append, int8_length] at hsz'
    have hkl : (s.key.getD []).length ≤ (Kafka.varintBytes s.key).length := by
      cases s.key <;> simp [Kafka.varintBytes]
    have hvl : (s.value.getD []).length ≤ (Kafka.varintBytes s.value).length := by
      cases s.value <;> simp [Kafka.varintBytes]
    have hc : s.headers.length ≤ (s.headers.flatMap Kafka.recordHeader).length :=
      length_le_flatMap_of_pos (fun x _ => by
        have := varint_length_pos x.1.length
        simp [Kafka.recordHeader]; omega)
    have hb : ∀ b : Option Bytes, (b.getD []).length < 2 ^ 63 → CReads rdVarint (Kafka.varint (bytesLen b)) (bytesLen b) := by
      intro b h
      cases b with
      | none => exact creads_varint (-1) (by omega)
      | some x => exact creads_varint_len _ h
    have hw : ∀ b : Option Bytes, Kafka.varintBytes b = Kafka.varint (bytesLen b) ++ b.getD [] := by
      intro b; cases b <;> simp [Kafka.varintBytes, bytesLen]
    have e : Kafka.recordBody s = Kafka.int8 s.attributes ++ (Kafka.varint s.timestampDelta ++ (Kafka.varint s.offsetDelta ++
        (Kafka.varint (bytesLen s.key) ++ (s.key.getD [] ++ (Kafka.varint (bytesLen s.value) ++ (s.value.getD [] ++
          (Kafka.varint s.headers.length ++ (s.headers.flatMap Kafka.recordHeader ++ [])))))))) := by
      simp only [Kafka.recordBody, hw, List.append_assoc, List.append_nil]
    rw [e]
    unfold decodeRecordFields
    refine CReads.bind_crashes (creads_int8' s.attributes hs.attributes) (CReads.bind_crashes (creads_varint _ hs.timestamp)
      (CReads.bind_crashes (creads_varint _ (by have := hs.offset; omega)) (CReads.bind_crashes (hb s.key (by omega))
      (CReads.bind_crashes (creads_ifPositive s.key) (CReads.bind_crashes (hb s.value (by omega))
      (CReads.bind_crashes (creads_ifPositive s.value) (CReads.bind_crashes (creads_varint_len s.headers.length (by omega)) ?_)))))))
    refine CCrashes.bind [] ?_
    have := crashes_recordHeaders s.headers (by omega) hs.header
    unfold Cur.forInt
    exact this
  unfold Kafka.record decodeToRecord Cur.run
  have hv := creads_varint_len (Kafka.recordBody s).length hsz [] (Kafka.recordBody s ++ rest)
  rw [List.nil_append, List.length_nil] at hv
  rw [List.append_assoc, Cur.bind_def, show (0 : Int) = ((0 : Nat) : Int) from rfl, hv]
  simp only
  rw [if_neg (by omega), Cur.bind_def]
  unfold Cur.peekRest
  rw [Nat.zero_add, sliceFrom_append]
  simp only
  rw [if_neg (by rw [List.length_append]; omega)]
  exact hf _ _

/-- A batch with such a record after ordinary ones. -/
structure NullPacked (env : FetchEnv) (x : Kafka.Packed) : Prop where
  records : ∃ a s b, x.batch.records = a ++ s :: b ∧ (∀ r ∈ a, RecordFits r) ∧ NullHeader s
  count : x.batch.records.length < 2 ^ 32
  size : x.payload.length + 49 < 2 ^ 32
  raw : uncompress env (Int8.ofNat (x.batch.attributes % 4).toNat) x.payload none
    = .ok (x.batch.records.flatMap Kafka.record)

theorem putRecords_crashes (env : FetchEnv) (hacc : ∀ n, env.accept n = true) (topic : Bytes) (part : Int32) (bo : Int64) (bt : UInt64)
    (a : List Kafka.Record) (ha : ∀ r ∈ a, RecordFits r) (x : Kafka.Record) (hx : NullHeader x) (n : Nat) (pre more : Bytes) (s : SD) :
    putRecords env topic part bo bt (a.length + (n + 1)) (pre ++ (a.flatMap Kafka.record ++ (Kafka.record x ++ more))) pre.length s
      = .panic := by
  induction a generalizing pre s with
  | nil =>
    rw [List.length_nil, Nat.zero_add, List.flatMap_nil, List.nil_append, putRecords, sliceFrom_append]
    simp only [record_crashes x hx]
  | cons r a ih =>
    rw [List.length_cons, show a.length + 1 + (n + 1) = (a.length + (n + 1)) + 1 from by omega, putRecords, sliceFrom_append]
    simp only [List.flatMap_cons, List.append_assoc]
    rw [reads_record r (ha r (by simp))]
    simp only
    rw [FM.bind_def, filterAndPut_ok env hacc]
    simp only
    have := ih (fun y hy => ha y (by simp [hy])) (pre ++ Kafka.record r) (s.deliver (wanted env topic part [recordMessage bo bt (goRecord r)]))
    rw [List.append_assoc, List.length_append] at this
    exact this

theorem magic2_crashes (env : FetchEnv) (hacc : ∀ n, env.accept n = true) (topic : Bytes) (part : Int32)
    (x : Kafka.Packed) (hb : NullPacked env x) (s : SD) (more : Bytes)
    (hav : s.avail = batchFixed x.crc x.batch ++ (x.payload ++ more)) :
    decodeRecordsMagic2 env topic part (packHead x) s = .panic := by
  unfold decodeRecordsMagic2
  have hlen : 44 ≤ s.avail.length := by rw [hav, List.length_append, batchFixed_length]; omega
  obtain ⟨s1, h1, h2⟩ := fetchRead_ok 44 s hlen
  rw [FM.bind_def, h1]
  have hgot : s.avail.take 44 = batchFixed x.crc x.batch := by rw [hav, List.take_left' (batchFixed_length x.crc x.batch)]
  have hav1 : s1.avail = x.payload ++ more := by
    rw [h2.avail, hav, List.drop_left' (batchFixed_length x.crc x.batch)]
  obtain ⟨f1, f2, f3, f4, f5⟩ := pack_fields x hb.size hb.count
  simp only [hgot, f1, f2, f3, f4, f5]
  obtain ⟨a, y, b, hr, ha, hy⟩ := hb.records
  rw [if_neg (by rw [hr]; simp), FM.bind_def]
  have hs : ((x.payload.length + 49 : Nat) : Int) - 49 = (x.payload.length : Int) := by omega
  rw [hs]
  unfold decodeBatchRecords
  rw [Int.toNat_natCast]
  have hl : x.payload.length ≤ s1.avail.length := by rw [hav1]; simp
  obtain ⟨s2, g1, g2⟩ := fetchReadUpTo_ok x.payload.length s1 (Or.inl hl)
  rw [g1]
  simp only
  rw [hav1, List.take_left' rfl, hb.raw]
  simp only
  have := putRecords_crashes env hacc topic part (Int64.ofInt x.batch.baseOffset) (Int64.ofInt x.batch.baseTimestamp).toUInt64
    a ha y hy b.length [] (b.flatMap Kafka.record) s2
  rw [List.nil_append, List.length_nil, show ((0 : Nat) : Int) = 0 from rfl] at this
  rw [hr, List.flatMap_append, List.flatMap_cons, List.length_append, List.length_cons, this]

theorem messageSetLoop_crashes (env : FetchEnv) (hacc : ∀ n, env.accept n = true) (topic : Bytes) (part : Int32)
    (xs : List Kafka.Packed) (hb : ∀ x ∈ xs, PackFits env x) (hz : ∀ x ∈ xs, x.batch.records = [] → x.payload = [])
    (y : Kafka.Packed) (hy : NullPacked env y)
    (s : SD) (more : Bytes) (hav : s.avail = packsWire xs ++ (Kafka.packed y ++ more)) (size off : Int) (fuel : Nat)
    (hf : s.rd.limit < fuel) (hoff : off + (packsWire xs).length < size) :
    messageSetLoop env topic part size fuel off s = .panic := by
  induction xs generalizing s off fuel with
  | nil =>
    obtain ⟨f, rfl⟩ : ∃ f, fuel = f + 1 := ⟨fuel - 1, by omega⟩
    simp only [packsWire, List.flatMap_nil, List.length_nil, List.nil_append] at hoff hav
    unfold messageSetLoop
    rw [if_pos (by omega)]
    have hav' : s.avail = packHead y ++ (batchFixed y.crc y.batch ++ (y.payload ++ more)) := by
      rw [hav, packed_eq]; simp only [List.append_assoc]
    obtain ⟨s1, h1, h2⟩ := fetchRead_ok 17 s (by rw [hav', List.length_append, packHead_length]; omega)
    rw [FM.bind_def, h1]
    simp only
    have hh : s.avail.take 17 = packHead y := by rw [hav', List.take_left' (packHead_length y)]
    have hav1 : s1.avail = batchFixed y.crc y.batch ++ (y.payload ++ more) := by
      rw [h2.avail, hav', List.drop_left' (packHead_length y)]
    rw [hh, if_neg (pack_magic y), FM.bind_def, magic2_crashes env hacc topic part y hy s1 more hav1]
  | cons x xs ih =>
    obtain ⟨f, rfl⟩ : ∃ f, fuel = f + 1 := ⟨fuel - 1, by omega⟩
    have hw : packsWire (x :: xs) = Kafka.packed x ++ packsWire xs := by simp [packsWire]
    have hwl := packed_length x
    rw [hw, List.length_append] at hoff
    unfold messageSetLoop
    rw [if_pos (by omega)]
    have hav' : s.avail = packHead x ++ (batchFixed x.crc x.batch ++ (x.payload ++ (packsWire xs ++ (Kafka.packed y ++ more)))) := by
      rw [hav, hw, packed_eq]; simp only [List.append_assoc]
    obtain ⟨s1, h1, h2⟩ := fetchRead_ok 17 s (by rw [hav', List.length_append, packHead_length]; omega)
    rw [FM.bind_def, h1]
    simp only
    have hh : s.avail.take 17 = packHead x := by rw [hav', List.take_left' (packHead_length x)]
    rw [hh, if_neg (pack_magic x), FM.bind_def]
    have hav1 : s1.avail = batchFixed x.crc x.batch ++ (x.payload ++ (packsWire xs ++ (Kafka.packed y ++ more))) := by
      rw [h2.avail, hav', List.drop_left' (packHead_length x)]
    obtain ⟨s2, e1, e2⟩ := decodeRecordsMagic2_packed env hacc topic part x (hb x (by simp)) s1 _ hav1 (hz x (by simp))
    rw [e1]
    simp only
    have h12 := h2.trans e2
    have hlim := h12.limit
    have havl : s.avail.length ≤ s.rd.limit := by unfold SD.avail; rw [List.length_take]; omega
    have hcl : 61 + x.payload.length ≤ s.avail.length := by
      rw [hav, hw, List.length_append, List.length_append]; omega
    have hav2 : s2.avail = packsWire xs ++ (Kafka.packed y ++ more) := by
      rw [h12.avail, hav, hw, List.append_assoc]
      exact List.drop_left' (by omega)
    exact ih (fun y hy => hb y (by simp [hy])) (fun y hy => hz y (by simp [hy]))
      (s2.deliver (wanted env topic part (batchMessages x.batch))) hav2
      (off + 17 + ((44 + x.payload.length : Nat) : Int)) f (by rw [deliver_rd]; omega) (by omega)

/-- C15 fails for every answer in which a message has a header with a null value, whatever batches and records stand before
it and whatever follows: the decoder crashes. -/
theorem C15_violated_every_null_header (env : FetchEnv) (hacc : ∀ n, env.accept n = true)
    (unpack : Nat → Bytes → Option Bytes) (xs : List Kafka.Packed) (hx : ∀ x ∈ xs, LogFits env unpack x)
    (y : Kafka.Packed) (hy : NullPacked env y) (more : Bytes)
    (h : Kafka.FetchHeader) (topic : Bytes) (p : Kafka.FetchPartition)
    (hdata : p.data = xs.flatMap Kafka.packed ++ (Kafka.packed y ++ more))
    (rest : Bytes) (s : SD) (w : OnWire env h topic p rest s) :
    streamDecode env s = .panic := by
  have hpl := packed_length y
  have hne : p.data ≠ [] := by
    intro e
    rw [e] at hdata
    have := congrArg List.length hdata
    simp only [List.length_nil, List.length_append] at this
    omega
  obtain ⟨s1, ⟨a1, a2, a3, a4, a5, a6⟩, hi, hpid, hdec⟩ := w.decode hne
  rw [hdec]
  have := messageSetLoop_crashes env hacc topic (Int32.ofInt p.partition) xs (fun x hm => (hx x hm).pack) (fun x hm => (hx x hm).empty)
    y hy s1 more (by rw [a1, hdata]; rfl) (Int32.ofInt p.data.length).toInt 0 (s1.rd.limit + 1) (by omega)
    (by rw [hi, hdata]; simp only [packsWire, List.length_append]; omega)
  unfold decodeMessageSet FM.after
  simp only [this]
  rfl

example : NullPacked {} ⟨0, { sampleBatch 0 with records := [⟨0, 0, 0, some [107], some [118], [([104], none)]⟩] },
    Kafka.record ⟨0, 0, 0, some [107], some [118], [([104], none)]⟩⟩ :=
  ⟨⟨[], _, [], rfl, by simp, ⟨by decide, by decide, by decide, ⟨_, List.mem_singleton.2 rfl, rfl⟩, by decide +kernel⟩⟩,
    by decide, by decide +kernel, by decide +kernel⟩

/-! ## C81 -/

/-- C81 fails for every answer to describe-ACLs: whatever length its first four bytes announce, it is decoded all the same. -/
theorem C81_violated_every_length (v : UInt16) (hv : v = 0 ∨ v = 2) (corr : UInt32) (htags tags : TaggedFields)
    (hht : htags.Fits) (htg : tags.Fits) (throttle : Int32) (error : Int16) (message : Option Bytes)
    (hm : ∀ b, message = some b → Kafka.IsString b) (resources : List AclResource) (h : ∀ r ∈ resources, r.Fits)
    (bs : Bytes) (hbs : bs = Kafka.response .describeAcls v.toNat corr.toNat htags.wire (Kafka.describeAclsResponse v.toNat
      throttle.toInt error.toInt message (resources.map AclResource.wire) tags.wire)) (hl : bs.length < 2 ^ 31)
    (p : Bytes) (hp : p.length = 4) :
    ∃ r, parse API_DescribeAcls v bs = .ok (.describeAcls r, none) ∧
      parse API_DescribeAcls v (p ++ bs.drop 4) = .ok (.describeAcls r, none) := by
  obtain ⟨body, e, hb⟩ := sreads_describeAcls v hv corr htags tags hht htg throttle error message hm resources h
  rw [e] at hbs
  unfold Kafka.frame at hbs
  subst hbs
  rw [List.length_append] at hl
  refine ⟨⟨corr, throttle, error, message, resources.map (AclResource.seen v), if decide (v ≥ 2) then tags.norm else none⟩, ?_, ?_⟩
  · rw [parse_describeAcls, newDescribeAcls_prefixed hb (by omega) _ (int32_length _)]; rfl
  · rw [List.drop_left' (int32_length _), parse_describeAcls, newDescribeAcls_prefixed hb (by omega) p hp]; rfl

example : parse API_DescribeAcls 2 ([255, 255, 255, 255] ++ (Kafka.response .describeAcls 2 7 [] (Kafka.describeAclsResponse 2 0 0 none [] [])).drop 4) =
    .ok (.describeAcls ⟨7, 0, 0, none, [], none⟩, none) := by decide +kernel

/-! ## C122 -/

/-- C122 fails for every answer without error in which nothing is said about the topic: the client crashes. -/
theorem C122_violated_every_missing (topic : Bytes) (r : OffsetsResponse) (he : r.error = none)
    (h : r.topicPartitionOffsets.get topic = none ∨ r.topicPartitionOffsets.get topic = some []) :
    lookupAnswer topic r = .panic := by
  unfold lookupAnswer
  rw [he]
  rcases h with h | h <;> simp only [h]

example : lookupAnswer [116] ⟨0, 0, [([117], [⟨1, 0, [], -1, 42⟩])]⟩ = .panic := by decide +kernel

/-- C122 fails for every answer in which another partition comes first: its position is taken, whatever is said about the
partition asked for. -/
theorem C122_violated_every_other (topic : Bytes) (r : OffsetsResponse) (he : r.error = none) (p q : PartitionOffset)
    (ps : List PartitionOffset) (h : r.topicPartitionOffsets.get topic = some (p :: ps)) (_hq : q ∈ ps) (hne : q.offset ≠ p.offset)
    (ho : p.oldStyleOffsets = []) : lookupAnswer topic r = .ok p.offset ∧ lookupAnswer topic r ≠ .ok q.offset := by
  have := (C122_lookup_partial topic r p ps h).2.1 he ho
  refine ⟨this, ?_⟩
  rw [this]
  intro e
  exact hne (Out.ok.inj e).symm

/-! ## C155 -/

theorem newTicker_panics {ms : Int64} (h : -9223372036854 ≤ ms.toInt) (h' : ms.toInt ≤ 0) : newTicker (millis ms) = .panic := by
  unfold newTicker millis
  rw [if_pos]
  rw [Int64.le_iff_toInt_le, Int64.toInt_mul, show (1000000 : Int64).toInt = 1000000 from rfl, show (0 : Int64).toInt = 0 from rfl, Int.bmod_eq_of_le] <;> omega

/-- C155 fails for every configuration of a consumer that is accepted: with any session timeout, metadata age and commit
interval that are not positive instead, it is accepted as well, and every ticker made from it panics. -/
theorem C155_violated_every_consumer (kind : ConsumerKind) (dflt given c : ConsumerConfig) (h h' : IntArrays)
    (ha : acceptConsumer kind dflt (.config given) h = .ok (h', .ok c)) (session : Int32) (age commit : Int64)
    (hs : session.toInt ≤ 0) (hm : -9223372036854 ≤ age.toInt ∧ age.toInt ≤ 0) (hc : -9223372036854 ≤ commit.toInt ∧ commit.toInt ≤ 0) :
    ∃ c' h'', acceptConsumer kind dflt (.config { given with sessionTimeoutMS := session, metadataMaxAgeMS := age, autoCommitIntervalMS := commit }) h
        = .ok (h'', .ok c') ∧
      c'.heartTicker = .panic ∧ c'.metadataTicker = .panic ∧ (given.autoCommit = true → given.groupID ≠ "" → c'.commitTicker = some .panic) := by
  have hh : newTicker (millis session.toInt64 / 10) = .panic := by
    have hlt := session.le_toInt
    have hmt : (millis session.toInt64).toInt = 1000000 * session.toInt := by
      unfold millis
      rw [Int64.toInt_mul, Int32.toInt_toInt64, show (1000000 : Int64).toInt = 1000000 from rfl, Int.bmod_eq_of_le] <;> omega
    unfold newTicker
    rw [if_pos]
    rw [Int64.le_iff_toInt_le, Int64.toInt_div, hmt, show (10 : Int64).toInt = 10 from rfl, show (0 : Int64).toInt = 0 from rfl,
      show 1000000 * session.toInt = -(1000000 * -session.toInt) by omega, Int.neg_tdiv, Int.tdiv_eq_ediv_of_nonneg (by omega),
      Int.bmod_eq_of_le] <;> omega
  obtain ⟨r', hr, hacc⟩ := acceptConsumer_create ha
  obtain ⟨hr', hvalid⟩ := hacc c rfl
  subst hr'
  obtain ⟨c0, hreset, hd⟩ := createConsumerConfig_reset hr
  have hcc := hd c rfl
  subst hcc
  have key : ∃ x, c = { given with net := x } ∧ ∃ hx, ({ given with sessionTimeoutMS := session, metadataMaxAgeMS := age, autoCommitIntervalMS := commit } : ConsumerConfig).reset h
      = .ok (hx, { given with net := x, sessionTimeoutMS := session, metadataMaxAgeMS := age, autoCommitIntervalMS := commit }) := by
    change given.reset h = _ at hreset
    unfold ConsumerConfig.reset at hreset ⊢
    cases hf : given.net.forEachAPI with
    | none =>
      simp only [hf] at hreset ⊢
      cases hreset
      exact ⟨_, rfl, _, rfl⟩
    | some i =>
      simp only [hf] at hreset ⊢
      by_cases h0 : (h.getD i []).length = 0
      · rw [if_pos h0] at hreset ⊢
        cases hreset
        exact ⟨_, rfl, _, rfl⟩
      · rw [if_neg h0] at hreset ⊢
        by_cases h1 : (h.getD i []).length ≤ 11
        · rw [if_pos h1] at hreset; cases hreset
        · rw [if_neg h1] at hreset ⊢
          cases hreset
          exact ⟨_, rfl, _, rfl⟩
  obtain ⟨x, rfl, hx, hres⟩ := key
  refine ⟨{ given with net := x, sessionTimeoutMS := session, metadataMaxAgeMS := age, autoCommitIntervalMS := commit }, hx, ?_, hh,
    newTicker_panics hm.1 hm.2, fun h1 h2 => ?_⟩
  · unfold acceptConsumer createConsumerConfig
    simp only [hres, Out.map]
    cases kind with
    | group =>
      have := hvalid rfl
      have e : ({ given with net := x, sessionTimeoutMS := session, metadataMaxAgeMS := age, autoCommitIntervalMS := commit } : ConsumerConfig).checkValid = none := this
      rw [e]
    | simple => rfl
    | consumer => rfl
  · simp only [ConsumerConfig.commitTicker, h1, h2, ne_eq, not_false_eq_true, and_self, if_true, newTicker_panics hc.1 hc.2]

example : ∃ h' c, acceptConsumer .group Clients.init.dflt (.config { sampleConsumerConfig with sessionTimeoutMS := -1 }) Clients.init.arrays = .ok (h', .ok c) ∧
    c.heartTicker = .panic ∧ c.metadataTicker = .ok 300000000000 := ⟨_, _, rfl, rfl, rfl⟩

/-- C155 fails for every configuration of a producer that is accepted: with any metadata age that is not positive instead, it
is accepted as well, and the ticker of the metadata panics. -/
theorem C155_violated_every_producer (given c : ProducerConfig) (ha : createProducerConfig (.config given) = .ok c) (age : Int64)
    (hm : -9223372036854 ≤ age.toInt ∧ age.toInt ≤ 0) :
    ∃ c', createProducerConfig (.config { given with metadataMaxAgeMS := age }) = .ok c' ∧ c'.metadataTicker = .panic := by
  unfold createProducerConfig ProducerConfig.checked at ha ⊢
  simp only at ha ⊢
  have e : ({ given with metadataMaxAgeMS := age } : ProducerConfig).checkValid = given.checkValid := rfl
  rw [e]
  cases hv : given.checkValid with
  | some x => rw [hv] at ha; cases ha
  | none =>
    refine ⟨_, rfl, ?_⟩
    unfold ProducerConfig.raiseMagic ProducerConfig.metadataTicker
    split <;> exact newTicker_panics hm.1 hm.2

/-! ## C127 and C132 -/

/-- C127 fails for every partition a group has committed nothing for (-1): one message more than there ever were counts as
pending. -/
theorem C127_violated_every_uncommitted {W : Type} (net : Net W) (fetch : Nat → OffsetFetchRequest → W → Except Err OffsetFetchResponse × W)
    (group topic : Bytes) (ps : List Int32) (off com : Int32 → Int64) (ho : Orderly net topic ps off) (hc : Remembers fetch group topic com)
    (b b' : Brokers W) (rows : List PendingRow) (h : Brokers.getPending net fetch group topic b = (.ok rows, b'))
    (p : Int32) (hp : p ∈ ps) (hu : com p = -1) (hk : 0 ≤ (off p).toInt) :
    (⟨p, off p, -1, off p + 1⟩ : PendingRow) ∈ rows := by
  obtain ⟨offsets, b1, h1, h⟩ := Brokers.andThen_ok h
  obtain ⟨l, b2, h2, h⟩ := Brokers.andThen_ok h
  obtain ⟨committed, b3, h3, h⟩ := Brokers.andThen_ok h
  simp only [Prod.mk.injEq, Out.ok.injEq] at h
  obtain ⟨hperm, -⟩ := Brokers.getPartitions_ok ho _ _ _ h2
  have hl := hperm.mem_iff.2 hp
  rw [← h.1]
  refine List.mem_map.2 ⟨p, hl, ?_⟩
  have ho' := (Brokers.getOffset_ok ho _ _ _ h1).2 p
  rw [if_pos hp] at ho'
  have hc' := Brokers.getCommitted_ok hc _ _ _ _ h3 p hl
  have hne : off p ≠ -1 := by
    intro e
    rw [e] at hk
    revert hk; decide
  simp only [pendingRow, ho', hc', Option.getD_some, hu, if_neg hne]
  rw [Int64.sub_eq_add_neg]
  rfl

example : Orderly tallyNet [116] [0, 1, 2] (fun p => 10 * (p.toInt64 + 1)) ∧ Remembers (tallyFetch fun _ => -1) [103] [116] (fun _ => -1) ∧
    okPart (Brokers.getPending tallyNet (tallyFetch fun _ => -1) [103] [116] (demoBrokers tallyNet)) =
      some [⟨0, 10, -1, 11⟩, ⟨1, 20, -1, 21⟩, ⟨2, 30, -1, 31⟩] := C127_violated_uncommitted

/-- C132 fails whenever the end offsets cannot be had: the answer has status 200, if it is not an error, with offsets 0 and
lags of minus what was committed. -/
theorem C132_violated_every_offsets {W : Type} (net : Net W) (fetch : Nat → OffsetFetchRequest → W → Except Err OffsetFetchResponse × W)
    (group topic : Bytes) (b b1 b2 b3 : Brokers W) (e : Err) (r : MetadataResponse) (committed : AMap Int32 Int64)
    (h1 : Brokers.getOffset net topic b = (.err e, b1)) (h2 : Brokers.requestMetaData net [topic] b1 = ((r, none), b2))
    (h3 : Brokers.getCommitted net fetch group topic (r.topics.flatMap fun t => t.partitions.map PartitionMetadataInfo.partitionID) b2 =
      (.ok committed, b3)) :
    ∃ rows, Brokers.httpPending net fetch group topic b = (.ok (200, rows), b3) ∧
      rows.map PendingRow.partition = (r.topics.flatMap fun t => t.partitions.map PartitionMetadataInfo.partitionID) ∧
      ∀ row ∈ rows, row.offset = 0 ∧ row.committed = (committed.get row.partition).getD 0 ∧ row.lag = 0 - row.committed := by
  unfold Brokers.httpPending
  rw [h1]
  simp only
  unfold Brokers.httpRows
  rw [h2]
  simp only
  rw [h3]
  refine ⟨_, rfl, ?_, ?_⟩
  · rw [List.map_map]
    exact List.map_id' _
  · intro row hr
    obtain ⟨p, _, rfl⟩ := List.mem_map.1 hr
    exact ⟨rfl, rfl, rfl⟩

example : okPart (Brokers.httpPending muteNet (tallyFetch fun _ => 7) [103] [116] (demoBrokers muteNet)) =
    some (200, [⟨0, 0, 7, -7⟩, ⟨1, 0, 7, -7⟩, ⟨2, 0, 7, -7⟩]) := C132_violated_offsets

/-! ## C61 -/

theorem request_inj {a : Kafka.Api} {v corr : Nat} {cid : Option Bytes} {x y : Bytes}
    (h : Kafka.request a v corr cid x = Kafka.request a v corr cid y) : x = y := by
  have hl : x.length = y.length := Decidable.byContradiction fun hc => request_ne hc h
  unfold Kafka.request Kafka.frame at h
  simp only [List.length_append, hl] at h
  exact List.append_cancel_left (List.append_cancel_left h)

/-- The topic as it is written in version 0: no assignments become an empty list of assignments. -/
def CreatePartitionsTopic.unassigned (t : CreatePartitionsTopic) : CreatePartitionsTopic := { t with assignments := some (t.assignments.getD []) }

theorem morePartitions_same_length (t : CreatePartitionsTopic) :
    (morePartitionsWire 0 t.unassigned.wire).length = (morePartitionsWire 0 t.wire).length := by
  obtain ⟨n, c, a⟩ := t
  cases a with
  | none => simp [morePartitionsWire, CreatePartitionsTopic.unassigned, CreatePartitionsTopic.wire, Kafka.nullableArray, Kafka.array]
  | some a => rfl

theorem morePartitions_flatMap_ne (ts : List CreatePartitionsTopic) (h : ∃ t ∈ ts, t.assignments = none) :
    ts.flatMap (fun t => morePartitionsWire 0 t.unassigned.wire) ≠ ts.flatMap (fun t => morePartitionsWire 0 t.wire) := by
  induction ts with
  | nil => obtain ⟨t, ht, _⟩ := h; cases ht
  | cons t ts ih =>
    intro e
    rw [List.flatMap_cons, List.flatMap_cons] at e
    obtain ⟨e1, e2⟩ := List.append_inj e (morePartitions_same_length t)
    obtain ⟨x, hx, hn⟩ := h
    rcases List.mem_cons.1 hx with rfl | hx
    · obtain ⟨n, c, a⟩ := x
      simp only at hn
      subst hn
      simp only [morePartitionsWire, CreatePartitionsTopic.unassigned, CreatePartitionsTopic.wire, Kafka.nullableArray, Kafka.array,
        List.append_assoc] at e1
      have := List.append_cancel_left (List.append_cancel_left e1)
      revert this; decide
    · exact ih ⟨x, hx, hn⟩ e2

/-- C61 fails for every create-partitions request of version 0 with a topic without assignments: an empty list is written where
the grammar wants null. -/
theorem C61_violated_every_unassigned (r : CreatePartitionsRequest) (corr : UInt32) (cid : Option Bytes)
    (h : ∃ t ∈ r.topics, t.assignments = none) :
    r.encode (reqHeader API_CreatePartitions 0 corr cid) 0 = .ok (Kafka.request .createPartitions 0 corr.toNat cid
      (Kafka.createPartitionsRequest 0 (r.topics.map fun t => { t.wire with assignments := some (t.wire.assignments.getD []) })
        r.timeoutMS.toInt r.validateOnly)) ∧
    r.encode (reqHeader API_CreatePartitions 0 corr cid) 0 ≠ .ok (Kafka.request .createPartitions 0 corr.toNat cid
      (Kafka.createPartitionsRequest 0 (r.topics.map CreatePartitionsTopic.wire) r.timeoutMS.toInt r.validateOnly)) := by
  have hw : ∀ t : CreatePartitionsTopic, t.unassigned.wire = { t.wire with assignments := some (t.wire.assignments.getD []) } := by
    intro t
    obtain ⟨n, c, a⟩ := t
    cases a <;> rfl
  have he : r.encode (reqHeader API_CreatePartitions 0 corr cid) 0 =
      ({ r with topics := r.topics.map CreatePartitionsTopic.unassigned } : CreatePartitionsRequest).encode
        (reqHeader API_CreatePartitions 0 corr cid) 0 := by
    unfold CreatePartitionsRequest.encode CreatePartitionsRequest.length
    simp only [List.foldl_map, List.length_map, CreatePartitionsTopic.unassigned, Option.getD_some]
    have : ∀ ts : List CreatePartitionsTopic, Enc.each (CreatePartitionsTopic.enc 0) ts = Enc.each (CreatePartitionsTopic.enc 0)
        (ts.map fun t => { t with assignments := some (t.assignments.getD []) }) := by
      intro ts
      induction ts with
      | nil => rfl
      | cons t ts ih => rw [List.map_cons, Enc.each, Enc.each, ih]; rfl
    rw [this r.topics]
    rfl
  have hp := C61_createPartitions_v0_partial { r with topics := r.topics.map CreatePartitionsTopic.unassigned } (by
    intro t ht
    obtain ⟨x, _, rfl⟩ := List.mem_map.1 ht
    simp [CreatePartitionsTopic.unassigned]) corr cid
  rw [he, hp]
  simp only [List.map_map]
  have hm : r.topics.map (CreatePartitionsTopic.wire ∘ CreatePartitionsTopic.unassigned) =
      r.topics.map fun t => { t.wire with assignments := some (t.wire.assignments.getD []) } :=
    List.map_congr_left fun t _ => hw t
  refine ⟨by rw [hm]; rfl, ?_⟩
  intro e
  have e2 := request_inj (Out.ok.inj e)
  change Kafka.array (morePartitionsWire 0) _ ++ _ ++ _ = Kafka.array (morePartitionsWire 0) _ ++ _ ++ _ at e2
  have e3 := List.append_cancel_right (List.append_cancel_right e2)
  unfold Kafka.array at e3
  rw [List.length_map, List.length_map] at e3
  have e4 := List.append_cancel_left e3
  rw [List.flatMap_map, List.flatMap_map] at e4
  exact morePartitions_flatMap_ne r.topics h e4

end Healer
