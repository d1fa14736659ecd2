import Verif.Props.ConfigMessage

/-! C73: every answer of version 0 about records written to several partitions is read as that of the first partition, repeated, or crashes the client. -/

namespace Healer

/-- What is read behind another step -/
theorem then_any {α β : Type} {m : Cur α} {f : α → Cur β} {P : β → Prop} (h : ∀ a p i b o, f a p i = .ok (b, o) → P b) (p : Bytes) (i : Int) (b : β) (o : Int)
    (e : (m >>= f) p i = .ok (b, o)) : P b := by
  rw [Cur.bind_def] at e
  cases hm : m p i with
  | ok x =>
    rw [hm] at e
    exact h _ _ _ _ _ e
  | err e' => rw [hm] at e; simp at e
  | panic => rw [hm] at e; simp at e

theorem ReadsSome.keep {α : Type} {c : Cur α} {bs : Bytes} {P : α → Prop} (h : ReadsSome c bs P) : ReadsSome (Cur.call (keepOffset (Cur.run c))) bs P := by
  intro pre a o hc
  unfold Cur.call keepOffset Cur.run at hc
  rw [sliceFrom_append] at hc
  cases hm : c bs 0 with
  | ok x =>
    obtain ⟨b, i⟩ := x
    simp only [hm, Out.ok.injEq, Prod.mk.injEq] at hc
    exact hc.1 ▸ h [] b i hm
  | err e => simp [hm] at hc
  | panic => simp [hm] at hc

/-- A function that returns no length leaves the reader where it was. -/
theorem keep_stays {α : Type} (f : GoDec α) (p : Bytes) (i : Int) (a : α) (o : Int) (h : Cur.call (keepOffset f) p i = .ok (a, o)) : o = i := by
  unfold Cur.call keepOffset at h
  cases hs : sliceFrom p i with
  | ok s =>
    cases hf : f s with
    | ok x => simp [hs, hf] at h; omega
    | err e => simp [hs, hf] at h
    | panic => simp [hs, hf] at h
  | err e => simp [hs] at h
  | panic => simp [hs] at h

/-- A loop around a function that stays where it was reads the same again and again. -/
theorem forN_stays {α : Type} {m : Cur α} (hm : ∀ p i a o, m p i = .ok (a, o) → o = i) (n : Nat) (p : Bytes) (i : Int) (l : List α) (o : Int)
    (h : Cur.forN (n + 1) m p i = .ok (l, o)) : ∃ a, m p i = .ok (a, i) ∧ l = List.replicate (n + 1) a := by
  have step : ∀ k l o, Cur.forN (k + 1) m p i = .ok (l, o) → ∃ a xs o', m p i = .ok (a, i) ∧ Cur.forN k m p i = .ok (xs, o') ∧ l = a :: xs := by
    intro k l o h
    have h : (m >>= fun x => Cur.forN k m >>= fun xs => pure (x :: xs)) p i = .ok (l, o) := h
    rw [Cur.bind_def] at h
    cases h1 : m p i with
    | ok x =>
      obtain ⟨a, j⟩ := x
      obtain rfl := hm _ _ _ _ h1
      rw [h1] at h
      simp only [Cur.bind_def] at h
      cases h2 : Cur.forN k m p j with
      | ok y =>
        obtain ⟨xs, o'⟩ := y
        rw [h2] at h
        have h : (Out.ok (a :: xs, o') : Out (List α × Int)) = .ok (l, o) := h
        simp only [Out.ok.injEq, Prod.mk.injEq] at h
        exact ⟨a, xs, o', rfl, rfl, h.1.symm⟩
      | err e => rw [h2] at h; simp at h
      | panic => rw [h2] at h; simp at h
    | err e => rw [h1] at h; simp at h
    | panic => rw [h1] at h; simp at h
  induction n generalizing l o with
  | zero =>
    obtain ⟨a, xs, o', h1, h2, rfl⟩ := step 0 l o h
    have h2 : (Out.ok ([], i) : Out (List α × Int)) = .ok (xs, o') := h2
    simp only [Out.ok.injEq, Prod.mk.injEq] at h2
    exact ⟨a, h1, by rw [← h2.1]; rfl⟩
  | succ n ih =>
    obtain ⟨a, xs, o', h1, h2, rfl⟩ := step (n + 1) l o h
    obtain ⟨b, h3, rfl⟩ := ih xs o' h2
    rw [h1] at h3
    simp only [Out.ok.injEq, Prod.mk.injEq, and_true] at h3
    subst h3
    exact ⟨a, h1, rfl⟩

/-- What the first three fields of a partition say is read, whatever follows. -/
theorem partition_reads (p : ProducedPartition) (bs : Bytes) : ReadsSome (rdProducedPartition 0 false)
    (Kafka.int32 p.partitionID.toInt ++ (Kafka.int16 p.errorCode.toInt ++ (Kafka.int64 p.baseOffset.toInt ++ bs)))
    fun y => y.partitionID = p.partitionID ∧ y.errorCode = p.errorCode ∧ y.baseOffset = p.baseOffset := by
  unfold rdProducedPartition
  refine ReadsSome.after (sreads_i32 _ (by simp)) (ReadsSome.after (sreads_i16 _ (by simp)) (ReadsSome.after (sreads_i64 _ (by simp)) ?_))
  refine ReadsSome.bind (Q := fun _ => True) (fun _ _ _ _ => trivial) fun a _ => ?_
  exact then_any fun s => then_any fun rs => then_pure fun m => ⟨rfl, rfl, rfl⟩

/-- C73 fails for every answer of version 0 about several partitions: if the client does not crash, it has the number, the error and the offset of the first
partition for every partition of the first topic, whatever the others report. -/
theorem C73_violated_every_partitions_v0 (corr : UInt32) (name : Bytes) (hs : Kafka.IsString name) (p : ProducedPartition) (rest : List Kafka.ProducedPartition)
    (hr : rest.length + 1 < 2 ^ 32) (more : List (Bytes × List Kafka.ProducedPartition)) (hm : more.length + 1 < 2 ^ 32) (throttle : Int)
    (hl : (Kafka.response .produce 0 corr.toNat [] (Kafka.produceResponse 0 ((name, p.wire :: rest) :: more) throttle)).length < 2 ^ 31)
    (r : ProduceResponse) (e : Option Err)
    (h : newProduceResponse 0 (Kafka.response .produce 0 corr.toNat [] (Kafka.produceResponse 0 ((name, p.wire :: rest) :: more) throttle)) = .ok (r, e)) :
    ∃ t ts y, r.produceResponses = t :: ts ∧ t.partitions = List.replicate (rest.length + 1) y ∧ y.partitionID = p.partitionID ∧
      y.errorCode = p.errorCode ∧ y.baseOffset = p.baseOffset := by
  obtain ⟨tail, e1⟩ : ∃ tail, Kafka.response .produce 0 corr.toNat [] (Kafka.produceResponse 0 ((name, p.wire :: rest) :: more) throttle) =
      Kafka.frame (Kafka.int32 corr.toNat ++ (Kafka.int32 (UInt32.ofNat (more.length + 1)).toNat ++ (Kafka.flexString false name ++
        (Kafka.int32 (UInt32.ofNat (rest.length + 1)).toNat ++ (Kafka.int32 p.partitionID.toInt ++ (Kafka.int16 p.errorCode.toInt ++
          (Kafka.int64 p.baseOffset.toInt ++ tail))))))) := by
    rw [UInt32.toNat_ofNat_of_lt' (by show _ < 4294967296; omega), UInt32.toNat_ofNat_of_lt' (by show _ < 4294967296; omega)]
    simp only [Kafka.response, Kafka.responseHeader, Kafka.produceResponse, ProducedPartition.wire,
      show Kafka.Api.responseHeaderVersion .produce 0 = 0 from rfl, show Kafka.Api.flexible .produce 0 = false from rfl,
      Kafka.flexArray, Kafka.array, List.flatMap_cons, List.length_cons, Bool.false_eq_true, if_false, List.append_assoc, List.nil_append,
      show ¬ (1 ≤ 0) from by decide, show ¬ (2 ≤ 0) from by decide, show ¬ (5 ≤ 0) from by decide, show ¬ (8 ≤ 0) from by decide]
    exact ⟨_, rfl⟩
  rw [e1] at hl h
  have hh' : CReads (Cur.call (decodeResponseHeader API_DeleteAcls 0)) (Kafka.int32 corr.toNat) ⟨API_DeleteAcls, 0, 0, corr, none⟩ :=
    (CReads.call (reads_responseHeader API_DeleteAcls 0 0 rfl corr none taggedFields_fits_none)).cast (by simp [Kafka.responseHeader]) rfl
  have count : ∀ n : Nat, CReads (rdMakeCount false) (Kafka.int32 (UInt32.ofNat n).toNat) ((UInt32.ofNat n).toNat : Int) := fun n =>
    CReads.bind_pure (g := fun n : UInt32 => (n.toNat : Int)) (creads_u32 _)
  have hn : (Kafka.flexString false name).length < 2 ^ 31 := by
    have : name.length < 2 ^ 15 := hs
    simp only [Kafka.flexString, Bool.false_eq_true, if_false, Kafka.string, List.length_append, int16_length]
    omega
  let Q : ProducedTopic → Prop := fun t => ∃ y, t.partitions = List.replicate (rest.length + 1) y ∧ y.partitionID = p.partitionID ∧
      y.errorCode = p.errorCode ∧ y.baseOffset = p.baseOffset
  have one : ReadsSome (Cur.call (decodeProducedTopic 0 false)) (Kafka.flexString false name ++
        (Kafka.int32 (UInt32.ofNat (rest.length + 1)).toNat ++ (Kafka.int32 p.partitionID.toInt ++ (Kafka.int16 p.errorCode.toInt ++
          (Kafka.int64 p.baseOffset.toInt ++ tail))))) Q := by
    refine ReadsSome.call (ReadsSome.after (sreads_flexString (f := false) (fun _ => hs) hn) (ReadsSome.after (count _) ?_))
    rw [UInt32.toNat_ofNat_of_lt' (by show _ < 4294967296; omega)]
    refine ReadsSome.bind (Q := fun l => ∃ y : ProducedPartition, l = List.replicate (rest.length + 1) y ∧ y.partitionID = p.partitionID ∧
      y.errorCode = p.errorCode ∧ y.baseOffset = p.baseOffset) ?_ ?_
    · intro pre l o hc
      unfold Cur.forInt at hc
      rw [if_neg (by omega), Int.toNat_natCast] at hc
      obtain ⟨y, h1, h2⟩ := forN_stays (keep_stays _) _ _ _ _ _ hc
      exact ⟨y, h2, (ReadsSome.keep (partition_reads p tail)) pre y _ h1⟩
    · rintro l ⟨y, rfl, hy⟩
      exact then_pure fun t => ⟨y, rfl, hy⟩
  have key : ReadsSome (do
      let h ← Cur.call (decodeResponseHeader API_DeleteAcls 0)
      let n ← rdMakeCount h.isFlexible
      let ts ← Cur.forInt n (Cur.call (decodeProducedTopic 0 h.isFlexible))
      pure (⟨h, ts⟩, none) : Cur (ProduceResponse × Option Err)) (Kafka.int32 corr.toNat ++ (Kafka.int32 (UInt32.ofNat (more.length + 1)).toNat ++
        (Kafka.flexString false name ++ (Kafka.int32 (UInt32.ofNat (rest.length + 1)).toNat ++ (Kafka.int32 p.partitionID.toInt ++
          (Kafka.int16 p.errorCode.toInt ++ (Kafka.int64 p.baseOffset.toInt ++ tail)))))))
      fun z => ∃ t ts, z.1.produceResponses = t :: ts ∧ Q t := by
    refine ReadsSome.after hh' (ReadsSome.after (count _) (ReadsSome.bind (Q := fun l => ∃ t ts, l = t :: ts ∧ Q t) ?_ ?_))
    · rw [UInt32.toNat_ofNat_of_lt' (by show _ < 4294967296; omega)]
      unfold Cur.forInt
      rw [if_neg (by omega), Int.toNat_natCast]
      exact ReadsSome.bind one fun t ht => then_pure fun ts => ⟨t, ts, rfl, ht⟩
    · rintro l ⟨t, ts, rfl, ht⟩ p i z o hz
      have hz : (Out.ok (((⟨_, t :: ts⟩, none) : ProduceResponse × Option Err), i) : Out (_ × Int)) = .ok (z, o) := hz
      simp only [Out.ok.injEq, Prod.mk.injEq] at hz
      exact ⟨t, ts, by rw [← hz.1], ht⟩
  obtain ⟨t, ts, h1, y, h2, h3⟩ := respond_tells key hl (r, e) h
  exact ⟨t, ts, y, h1, h2, h3⟩

/-- two partitions, of which the second failed: the client sees the first twice, and no error -/
example : ∃ r, newProduceResponse 0 (Kafka.response .produce 0 7 [] (Kafka.produceResponse 0
    [([116], [⟨0, 0, 5, -1, 0, [], none⟩, ⟨1, 6, -1, -1, 0, [], none⟩])] 0)) = .ok (r, none) ∧
      r.produceResponses.map (fun t => t.partitions.map fun y => (y.partitionID, y.errorCode, y.baseOffset)) = [[(0, 0, 5), (0, 0, 5)]] ∧ r.error = none :=
  ⟨⟨⟨31, 0, 0, 7, none⟩, [⟨[116], [⟨0, 0, 5, 4295426047, 0, [], none⟩, ⟨0, 0, 5, 4295426047, 0, [], none⟩], none⟩]⟩, by decide +kernel, by decide, by decide⟩

end Healer
