import Verif.Props.Deadline
import Verif.Props.SizeSplit

/-!
# C181: an answer cut off inside the header of its partition
-/

namespace Healer

/-- `t` has come in one piece, more is expected, and the time is over -/
def SD.CutAt (s : SD) (t : Bytes) : Prop := s.rd.chunks = [t] ∧ t.length < s.rd.limit ∧ s.rd.fin = .timeout

/-- `m` ends with the timeout, whatever beginning of `pre` has come. -/
def TimesOut {α : Type} (m : FM α) (pre : Bytes) : Prop :=
  ∀ (t u : Bytes) (s : SD), t ++ u = pre → s.CutAt t → ∃ s', m s = .err .timeout s' ∧ s'.delivered = s.delivered

theorem fm_assoc {α β γ : Type} (m : FM α) (f : α → FM β) (g : β → FM γ) : (m >>= f) >>= g = m >>= fun a => f a >>= g := by
  funext s
  simp only [FM.bind_def]
  cases m s <;> rfl

theorem rdBuf_empty (k : Nat) (hk : 0 < k) (buf : Bytes) (s : SD) (h : s.CutAt []) : ∃ s', rdBuf k buf s = .err .timeout s' ∧ s'.delivered = s.delivered := by
  obtain ⟨⟨ch, l, f⟩, o, ho, d⟩ := s
  obtain ⟨h1, h2, h3⟩ := h
  simp only [List.length_nil] at h1 h2 h3
  subst h1 h3
  unfold rdBuf
  rw [FM.bind_def]
  unfold fetchRead1 Rdr.read1
  have hm : min k l ≠ 0 := by omega
  simp only [if_neg (Nat.ne_of_gt h2), if_neg hm, dropEmpty]
  exact ⟨_, rfl, rfl⟩

/-- One field, and what comes after it. -/
theorem TimesOut.field {β : Type} (a : Bytes) (k : Nat) (hk : a.length = k) (hpos : 0 < k) (buf q : Bytes) (f : Bytes → FM β)
    (hshort : ∀ t u, t ++ u = a → t ≠ [] → u ≠ [] → TimesOut (f (t ++ buf.drop t.length)) [])
    (hfull : TimesOut (f (a ++ buf.drop k)) q) : TimesOut (rdBuf k buf >>= f) (a ++ q) := by
  intro t u s htu hs
  rw [FM.bind_def]
  by_cases h0 : t = []
  · subst h0
    obtain ⟨s', h1, h2⟩ := rdBuf_empty k hpos buf s hs
    exact ⟨s', by rw [h1], h2⟩
  by_cases hlen : t.length < k
  · have hpre : ∃ u', t ++ u' = a ∧ u' ≠ [] := by
      refine ⟨a.drop t.length, ?_, ?_⟩
      · have : t = a.take t.length := by
          have := congrArg (List.take t.length) htu
          rw [List.take_left, List.take_append_of_le_length (by omega)] at this
          exact this
        conv => lhs; lhs; rw [this]
        exact List.take_append_drop _ _
      · intro h
        have := congrArg List.length h
        rw [List.length_drop, List.length_nil] at this
        omega
    obtain ⟨u', hu1, hu2⟩ := hpre
    have hr := (fends_rdBuf t buf k h0 (by omega)).all s [] hs.1 (Nat.le_of_lt hs.2.1)
    rw [hr]
    obtain ⟨s', h1, h2⟩ := hshort t u' hu1 h0 hu2 [] [] (s.skip t [] []) rfl ⟨rfl, by show 0 < s.rd.limit - t.length; have := hs.2.1; omega, hs.2.2⟩
    exact ⟨s', h1, h2⟩
  · have ht : t = a ++ t.drop k := by
      have := congrArg (List.take k) htu
      rw [List.take_append_of_le_length (by omega), ← hk, List.take_left] at this
      conv => lhs; rw [← List.take_append_drop k t]
      rw [← hk, this]
    have hr := (freads_rdBuf a k buf hk hpos).all s (t.drop k) [] (by rw [hs.1, ← ht]) (by have := hs.2.1; omega)
    rw [hr]
    obtain ⟨s', h1, h2⟩ := hfull (t.drop k) u (s.skip a (t.drop k) [])
      (by rw [ht, List.append_assoc] at htu; exact List.append_cancel_left htu)
      ⟨rfl, by show (t.drop k).length < s.rd.limit - a.length; rw [List.length_drop]; have := hs.2.1; omega, hs.2.2⟩
    exact ⟨s', h1, h2⟩

theorem timesOut_next {β : Type} (k : Nat) (hk : 0 < k) (buf : Bytes) (f : Bytes → FM β) : TimesOut (rdBuf k buf >>= f) [] := by
  intro t u s htu hs
  obtain ⟨rfl, -⟩ := List.append_eq_nil_iff.1 htu
  obtain ⟨s', h1, h2⟩ := rdBuf_empty k hk buf s hs
  exact ⟨s', by rw [FM.bind_def, h1], h2⟩

theorem timesOut_rdAborted_next {β : Type} (n : Nat) (buf : Bytes) (f : Bytes → FM β) (hf : ∀ b, TimesOut (f b) []) : TimesOut (rdAborted n buf >>= f) [] := by
  cases n with
  | zero => exact hf buf
  | succ n => rw [rdAborted, fm_assoc]; exact timesOut_next 8 (by omega) _ _

theorem timesOut_v7_next {β : Type} (v : UInt16) (buf : Bytes) (f : Bytes → FM β) (hf : ∀ b, TimesOut (f b) []) : TimesOut (rdPartitionV7 v buf >>= f) [] := by
  unfold rdPartitionV7
  split
  · rw [fm_assoc]; exact timesOut_next 8 (by omega) _ _
  · exact hf buf

theorem timesOut_rdAborted {β : Type} (xs : List (Int × Int)) (buf : Bytes) (f : Bytes → FM β) (hf : ∀ b, TimesOut (f b) []) :
    TimesOut (rdAborted xs.length buf >>= f) (xs.flatMap fun x => Kafka.int64 x.1 ++ Kafka.int64 x.2) := by
  induction xs generalizing buf with
  | nil => exact hf buf
  | cons x xs ih =>
    rw [List.length_cons, rdAborted, fm_assoc, List.flatMap_cons, List.append_assoc]
    refine TimesOut.field _ 8 (by simp) (by omega) buf _ _ (fun t u _ _ _ => ?_) ?_
    · rw [fm_assoc]; exact timesOut_next 8 (by omega) _ _
    · rw [fm_assoc]
      refine TimesOut.field _ 8 (by simp) (by omega) _ _ _ (fun t u _ _ _ => timesOut_rdAborted_next _ _ f hf) (ih _)

theorem timesOut_v7 {β : Type} (v : UInt16) (hv : v = 0 ∨ v = 7 ∨ v = 10) (p : Kafka.FetchPartition) (hp : AbortedFits p) (buf : Bytes) (f : Bytes → FM β)
    (hf : ∀ b, TimesOut (f b) []) : TimesOut (rdPartitionV7 v buf >>= f) (partitionMore v.toNat p) := by
  unfold rdPartitionV7 partitionMore
  by_cases h : v = 7 ∨ v = 10
  · rw [if_pos h, if_pos (by rcases h with rfl | rfl <;> decide)]
    rw [fm_assoc]
    refine TimesOut.field _ 8 (by simp) (by omega) _ _ _ (fun t u _ _ _ => ?_) ?_
    · rw [fm_assoc]; exact timesOut_next 8 (by omega) _ _
    rw [fm_assoc]
    refine TimesOut.field _ 8 (by simp) (by omega) _ _ _ (fun t u _ _ _ => ?_) ?_
    · rw [fm_assoc]; exact timesOut_next 4 (by omega) _ _
    rw [fm_assoc]
    unfold AbortedFits at hp
    cases ha : p.aborted with
    | none =>
      rw [show Kafka.abortedArray none = Kafka.int32 (-1) ++ [] from (List.append_nil _).symm]
      refine TimesOut.field _ 4 (by simp) (by omega) _ _ _ (fun t u _ _ _ => timesOut_rdAborted_next _ _ f hf) ?_
      exact timesOut_rdAborted_next _ _ f hf
    | some xs =>
      rw [ha] at hp
      simp only [Option.getD_some] at hp
      refine TimesOut.field (Kafka.int32 xs.length) 4 (by simp) (by omega) _ _ _ (fun t u _ _ _ => timesOut_rdAborted_next _ _ f hf) ?_
      simp only
      rw [beAt_first 4 _ _ (by simp), beVal_of32, Int32.toInt_ofInt_of_le (by omega) (by omega), Int.toNat_natCast]
      exact timesOut_rdAborted xs _ f hf
  · rw [if_neg h, if_neg (by rcases hv with rfl | h' | h' <;> first | decide | exact absurd (Or.inl h') h | exact absurd (Or.inr h') h)]
    exact hf buf

theorem int32_of_small (x : Int) (h0 : 0 ≤ x) (h1 : x < 2 ^ 16) : Kafka.int32 x = [0, 0] ++ Kafka.int16 x := by
  have e1 : (x % 2 ^ 32).toNat = x.toNat := by omega
  have e2 : (x % 2 ^ 16).toNat = x.toNat := by omega
  unfold Kafka.int32 Kafka.int16
  rw [e1, e2]
  have hn : x.toNat < 2 ^ 16 := by omega
  generalize x.toNat = n at hn
  show [UInt8.ofNat (n / 256 ^ 3), UInt8.ofNat (n / 256 ^ 2), UInt8.ofNat (n / 256 ^ 1), UInt8.ofNat (n / 256 ^ 0)] = [0, 0, UInt8.ofNat (n / 256 ^ 1), UInt8.ofNat (n / 256 ^ 0)]
  rw [Nat.div_eq_of_lt (show n < 256 ^ 3 by omega), Nat.div_eq_of_lt (show n < 256 ^ 2 by omega)]
  rfl

/-- The header of a partition, cut off before its last field, the size. -/
theorem timesOut_partitionHead (v : UInt16) (hv : v = 0 ∨ v = 7 ∨ v = 10) (p : Kafka.FetchPartition) (hp : AbortedFits p) (he : p.errorCode = 0)
    (hpid : 0 ≤ p.partition ∧ p.partition < 2 ^ 16) : TimesOut (partitionHead v) (partitionFront v.toNat p) := by
  unfold partitionHead partitionFront
  refine TimesOut.field _ 4 (by simp) (by omega) _ _ _ (fun t u _ _ _ => timesOut_next 2 (by omega) _ _) ?_
  refine TimesOut.field _ 2 (by simp) (by omega) _ _ _ (fun t u htu ht hu => ?_) ?_
  · have hb : (t ++ List.drop t.length (Kafka.int32 p.partition ++ List.drop 4 (List.replicate 8 0))) = [0, 0] ++ (Kafka.int16 p.partition ++ [0, 0, 0, 0]) := by
      rw [he] at htu
      match t, ht, u, hu, htu with
      | [a], _, _, _, h =>
        have : a = 0 := (List.cons.inj (show a :: _ = 0 :: [0] from h)).1
        subst this
        rw [int32_of_small p.partition hpid.1 hpid.2]
        rfl
      | a :: b :: t', _, u, hu, h =>
        have h1 := congrArg List.length h
        have h2 : 0 < u.length := List.length_pos_iff.2 hu
        have h3 : (Kafka.int16 0).length = 2 := by decide
        rw [h3, List.length_append, List.length_cons, List.length_cons] at h1
        omega
    rw [hb]
    simp only
    rw [beAt_first 2 _ _ rfl, if_neg (by decide)]
    exact timesOut_next 8 (by omega) _ _
  · rw [if_neg (by
      rw [beAt_first 2 _ _ (by simp), beVal_int16, int16_ofEmod, he]; decide)]
    refine TimesOut.field _ 8 (by simp) (by omega) _ _ _ (fun t u _ _ _ => timesOut_v7_next v _ _ fun b => timesOut_next 4 (by omega) _ _) ?_
    exact timesOut_v7 v hv p hp _ _ fun b => timesOut_next 4 (by omega) _ _

/-- C181 holds when the time is over in the header of the partition, before its last field, the size of the record data, if what has come did so in one piece (and the number of the
partition has at most 16 bits): the consumer is sent the timeout and nothing else, and the connection is closed.  Missing for the full statement: `C181_violated_every_size`, `C181_violated_every_records`. -/
theorem C181_partition_partial (env : FetchEnv) (hacc : ∀ n, env.accept n = true) (hv : env.version = 0 ∨ env.version = 7 ∨ env.version = 10) (h : Kafka.FetchHeader)
    (topic : Bytes) (ht : topic.length < 2 ^ 16) (p : Kafka.FetchPartition) (hp : AbortedFits p) (he : p.errorCode = 0) (hpid : 0 ≤ p.partition ∧ p.partition < 2 ^ 16)
    (hl : env.totalLength = (Kafka.fetchResponse env.version.toNat h [(topic, [p])]).length) (a b : Bytes)
    (hab : Kafka.fetchResponse env.version.toNat h [(topic, [p])] = a ++ b)
    (hfrom : (Kafka.fetchHead env.version.toNat h 1).length + (Kafka.fetchTopicHead topic 1).length ≤ a.length) (hto : p.data.length + 4 ≤ b.length) (late : List Ev) :
    timedFetch env [a] late = some ([{ topicName := [], partitionID := -1, error := some .timeout, message := none }], none) := by
  have hP : Kafka.fetchPartitionHead env.version.toNat p = partitionFront env.version.toNat p ++ Kafka.int32 p.data.length := by
    rw [fetchPartitionHead_eq _ hv]
    unfold partitionFront
    simp only [List.append_assoc]
  generalize hH : Kafka.fetchHead env.version.toNat h 1 = H at *
  generalize hT : Kafka.fetchTopicHead topic 1 = T at *
  have hA : ∃ t u, a = H ++ (T ++ t) ∧ t ++ u = partitionFront env.version.toNat p := by
    have hab := hab
    rw [fetchResponse_one] at hab
    unfold oneHead at hab
    rw [hP, hH, hT] at hab
    simp only [List.append_assoc] at hab
    rw [show H ++ (T ++ (partitionFront env.version.toNat p ++ (Kafka.int32 p.data.length ++ p.data))) =
      (H ++ (T ++ partitionFront env.version.toNat p)) ++ (Kafka.int32 p.data.length ++ p.data) by simp only [List.append_assoc]] at hab
    obtain ⟨w, hw⟩ : ∃ w, a ++ w = H ++ (T ++ partitionFront env.version.toNat p) := by
      have hle : a.length ≤ (H ++ (T ++ partitionFront env.version.toNat p)).length := by
        have := congrArg List.length hab
        simp only [List.length_append, show (Kafka.int32 p.data.length).length = 4 by simp] at this ⊢
        omega
      refine ⟨(H ++ (T ++ partitionFront env.version.toNat p)).drop a.length, ?_⟩
      have := congrArg (List.take a.length) hab
      rw [List.take_left, List.take_append_of_le_length hle] at this
      conv => lhs; lhs; rw [← this]
      exact List.take_append_drop _ _
    have e1 : a.take (H ++ T).length = H ++ T := by
      have := congrArg (List.take (H ++ T).length) hw
      rw [← List.append_assoc H, List.take_left, List.take_append_of_le_length (by rw [List.length_append]; omega)] at this
      exact this
    refine ⟨a.drop (H ++ T).length, w, ?_, ?_⟩
    · rw [← List.append_assoc]
      conv => lhs; rw [← List.take_append_drop (H ++ T).length a, e1]
    · rw [← List.append_assoc H] at hw
      rw [← List.take_append_drop (H ++ T).length a, e1, List.append_assoc] at hw
      exact List.append_cancel_left hw
  obtain ⟨t, u, hA, htu⟩ := hA
  have h1 := freads_fetchHeader env.version hv h 1 (by omega)
  have h2 := freads_topicHead topic 1 ht (by omega)
  rw [hH] at h1
  rw [hT] at h2
  have hlt : a.length < (timedState env [a]).rd.limit := by
    show a.length < env.totalLength
    rw [hl, hab, List.length_append]
    omega
  have hlt' : H.length + (T.length + t.length) < (timedState env [a]).rd.limit := by
    rw [hA, List.length_append, List.length_append, ← hA] at hlt
    exact hlt
  have hch0 : (timedState env [a]).rd.chunks = (H ++ (T ++ t)) :: [] := by rw [← hA]; rfl
  have hfin : (timedState env [a]).rd.fin = .timeout := rfl
  have hd0 : (timedState env [a]).delivered = [] := rfl
  unfold timedFetch
  rw [show ({ rd := { chunks := [a], limit := env.totalLength, fin := .timeout } } : SD) = timedState env [a] from rfl]
  unfold streamDecode
  rw [show ({ timedState env [a] with offset := 0, hasOne := false } : SD) = timedState env [a] from rfl]
  generalize timedState env [a] = s0 at hch0 hlt' hfin hd0
  rw [FM.bind_def, h1.all s0 _ _ hch0 (by omega)]
  have e2 := h2.all (s0.skip H (T ++ t) []) t [] rfl (by show _ ≤ s0.rd.limit - _; omega)
  rw [skip_skip] at e2
  obtain ⟨s', e3, e4⟩ := timesOut_partitionHead env.version hv p hp he hpid t u (s0.skip (H ++ T) t []) htu
    ⟨rfl, by show _ < s0.rd.limit - _; rw [List.length_append]; omega, hfin⟩
  have e4 : s'.delivered = [] := e4.trans hd0
  have e5 : decodePartitionResponse env topic (s0.skip (H ++ T) t []) = .err .timeout s' := by
    unfold decodePartitionResponse FM.after partitionBody
    rw [FM.bind_def, e3]
    rfl
  have e6 : decodeResponses env (s0.skip H (T ++ t) []) = .err .timeout s' := by
    unfold decodeResponses
    rw [FM.bind_def, e2]
    simp only
    rw [if_neg (by omega), times_one, e5]
  simp only [drainAfter, responsesLoop, e6, putMessage, hacc, if_true, e4, List.nil_append]
  rw [if_pos (by decide)]

/-- Non-vacuity: a stored batch; of the header of the partition five bytes come before the limit: one byte of the error code. -/
example :
    let p : Kafka.FetchPartition := samplePartition (Kafka.packed (samplePacked 0))
    let r := Kafka.fetchResponse 10 sampleHeader [([116], [p])]
    timedFetch { totalLength := r.length } [r.take 30] [.data (r.drop 30)] = some ([{ topicName := [], partitionID := -1, error := some .timeout, message := none }], none) := by
  intro p r
  exact C181_partition_partial { totalLength := r.length } (fun _ => rfl) (.inr (.inr rfl)) sampleHeader [116] (by decide) p (by unfold AbortedFits; decide) rfl (by decide) rfl _ _
    (List.take_append_drop _ _).symm (by decide +kernel) (by decide +kernel) _

end Healer
