import Verif.Props.OldFormat

/-!
# The first message of the old formats, cut or split (C16, C18)
-/

namespace Healer

/-- The first read of the message gets only part of what is left of it: nothing is decoded. -/
theorem magic01_short (env : FetchEnv) (topic : Bytes) (part : Int32) (x : Kafka.LegacyMessage) (hx : OldFits x) (got c : Bytes) (cs : List Bytes) (s : SD)
    (hpos : got ≠ []) (hgot : got.length < (oldTail x).length) (hch : s.rd.chunks = (got ++ c) :: cs) (hl : got.length ≤ s.rd.limit)
    (hend : got.length = s.rd.limit ∨ c = []) :
    decodeMessageSetMagic0or1 env topic part (oldHead x) s = .ok (got.length : Int) (s.skip got c cs) := by
  have htail := oldTail_length x
  have htl := oldTail_pos x
  unfold decodeMessageSetMagic0or1
  have hsz : beAt 4 8 (oldHead x) = (Kafka.legacyBody x).length + 4 := old_size x hx _
  rw [hsz, if_neg (by omega), FM.bind_def, fetchRead1_chunk got c _ s cs hpos hch (by omega) hl (.inr hend)]
  simp only
  rw [if_pos (by omega)]
  rfl

theorem take_head (x : Kafka.LegacyMessage) (k : Nat) (h : 17 ≤ k) : (Kafka.legacyMessage x).take k = oldHead x ++ (oldTail x).take (k - 17) := by
  rw [old_head_tail, show k = (oldHead x).length + (k - 17) by rw [oldHead_length]; omega, List.take_length_add_append]
  rw [oldHead_length, Nat.add_sub_cancel_left]

/-- **C16, the first message of the old formats.** If the broker cuts it, anywhere, the consumer is handed the error "maximum fetch size too small", and nothing of the message.

Missing for the full statement: messages after the first (`C16_old_cut_partial`), and responses handed out in pieces (`C18_violated_every_old_single`). -/
theorem C16_old_first_partial (env : FetchEnv) (hacc : ∀ n, env.accept n = true) (x : Kafka.LegacyMessage) (hx : OldFits x) (k : Nat) (h0 : 0 < k)
    (hk : k < (Kafka.legacyMessage x).length) (h : Kafka.FetchHeader) (topic : Bytes) (p : Kafka.FetchPartition) (hdata : p.data = (Kafka.legacyMessage x).take k)
    (rest : Bytes) (s : SD) (w : InOne env h topic p rest s) :
    ∃ s', streamDecode env s = .ok () s' ∧ s'.delivered = s.delivered ++ [⟨[], -1, some .maxBytesTooSmall, none⟩] ∧ s'.rd.flat = rest ∧ s'.rd.limit = 0 := by
  have hc := w.one
  rw [fetchResponse_one, List.append_assoc] at hc
  have hpl : p.data.length = k := by rw [hdata, List.length_take]; omega
  have hne : p.data ≠ [] := fun hh => by rw [hh] at hpl; simp at hpl; omega
  obtain ⟨s1, hch, ⟨a1, a2, a3, a4, a5, a6⟩, hi, hpid, hdec⟩ := w.wire.skip hne _ _ hc
  rw [hdec]
  suffices hr : ∃ t : SD, t.hasOne = false ∧ t.delivered = s1.delivered ∧ t.rd.drain.flat = rest ∧ t.rd.drain.limit = 0 ∧
      EndsAt (messageSetLoop env topic (Int32.ofInt p.partition) (Int32.ofInt p.data.length).toInt (s1.rd.limit + 1) 0 s1) t by
    obtain ⟨t, t1, t2, t3, t4, t5⟩ := hr
    obtain ⟨s', k1, k2, k3⟩ := finishOne_endsAt env hacc topic (Int32.ofInt p.partition) (Int32.ofInt p.data.length) s1 t a5 t1 [] (by rw [SD.deliver_nil]; exact t5)
    exact ⟨s', k1, by rw [k2, t2, a6]; rfl, by rw [k3, t3], by rw [k3, t4]⟩
  rw [hi, messageSetLoop, if_pos (by omega), FM.bind_def]
  by_cases hs : k < 17
  · have hf := fetchRead_less p.data rest 17 s1 [] hne hch (by omega) a2
    refine ⟨s1.skip p.data rest [], a5, rfl, ?_⟩
    obtain ⟨d1, d2⟩ := drain_rest (s := s1.skip p.data rest []) (data := []) (rest := rest) (by simp [SD.skip, Rdr.flat]) (by
      show s1.rd.limit - _ = 0
      omega)
    refine ⟨d1, d2, .inl ?_⟩
    rw [hf]
    rfl
  · have hsp := take_head x k (by omega)
    have hlen : (Kafka.legacyMessage x).length = 17 + (oldTail x).length := by rw [old_head_tail, List.length_append, oldHead_length]
    have hg : ((oldTail x).take (k - 17)).length = k - 17 := by rw [List.length_take]; omega
    have hlim := a2
    rw [hpl] at hlim
    have hdd : p.data = oldHead x ++ (oldTail x).take (k - 17) := hdata.trans hsp
    rw [hdd, List.append_assoc] at hch
    generalize (oldTail x).take (k - 17) = got at hch hg hdd
    rw [fetchRead_chunk (oldHead x) 17 (oldHead_length x) s1 _ _ hch (by omega)]
    simp only
    by_cases hk17 : k = 17
    · have hg0 : got = [] := List.length_eq_zero_iff.1 (by omega)
      subst hg0
      have hl0 : (s1.skip (oldHead x) ([] ++ rest) []).rd.limit = 0 := by
        show s1.rd.limit - (oldHead x).length = 0
        rw [oldHead_length]
        omega
      refine ⟨s1.skip (oldHead x) ([] ++ rest) [], a5, rfl, ?_⟩
      obtain ⟨d1, d2⟩ := drain_rest (s := s1.skip (oldHead x) ([] ++ rest) []) (data := []) (rest := rest) (by simp [SD.skip, Rdr.flat]) hl0
      refine ⟨d1, d2, .inr ?_⟩
      rw [if_pos (old_magic x hx), FM.bind_def]
      have hb : decodeMessageSetMagic0or1 env topic (Int32.ofInt p.partition) (oldHead x) (s1.skip (oldHead x) ([] ++ rest) [])
          = .err .eof (s1.skip (oldHead x) ([] ++ rest) []) := by
        have htail := oldTail_length x
        have htl := oldTail_pos x
        unfold decodeMessageSetMagic0or1
        have hsz : beAt 4 8 (oldHead x) = (Kafka.legacyBody x).length + 4 := old_size x hx _
        rw [hsz, if_neg (by omega), FM.bind_def, fetchRead1_end _ _ hl0]
        rfl
      rw [hb]
    · have hm := magic01_short env topic (Int32.ofInt p.partition) x hx got rest [] (s1.skip (oldHead x) (got ++ rest) [])
        (fun hh => by rw [hh] at hg; simp at hg; omega) (by omega) rfl (by
          show _ ≤ s1.rd.limit - _
          rw [oldHead_length]
          omega) (.inl (by
          show _ = s1.rd.limit - _
          rw [oldHead_length]
          omega))
      rw [skip_skip] at hm
      refine ⟨s1.skip (oldHead x ++ got) rest [], a5, rfl, ?_⟩
      obtain ⟨d1, d2⟩ := drain_rest (s := s1.skip (oldHead x ++ got) rest []) (data := []) (rest := rest) (by simp [SD.skip, Rdr.flat]) (by
        show s1.rd.limit - _ = 0
        rw [List.length_append, oldHead_length]
        omega)
      refine ⟨d1, d2, .inl ?_⟩
      rw [if_pos (old_magic x hx), FM.bind_def, hm]
      simp only
      rw [show s1.rd.limit = (s1.rd.limit - 1) + 1 by omega, messageSetLoop, if_neg (by omega)]
      rfl

/-- **C18 is violated for every message of the old formats** that is alone in its response and of which the network hands out the last 1 to 16 bytes separately: instead of the message
the consumer is handed the error "maximum fetch size too small". With the same bytes in one piece it is handed the message (`C169_old_delivery_partial`). -/
theorem C18_violated_every_old_single (env : FetchEnv) (hacc : ∀ n, env.accept n = true) (x : Kafka.LegacyMessage) (hx : OldFits x) (r : Nat) (h1 : 1 ≤ r) (h16 : r ≤ 16)
    (hr : r + 17 < (Kafka.legacyMessage x).length) (h : Kafka.FetchHeader) (topic : Bytes) (p : Kafka.FetchPartition) (hdata : p.data = Kafka.legacyMessageSet [x])
    (rest : Bytes) (s : SD) (w : OnWire env h topic p rest s)
    (hc : s.rd.chunks = [oneHead env.version h topic p ++ (p.data.take (p.data.length - r)), p.data.drop (p.data.length - r) ++ rest]) :
    ∃ s', streamDecode env s = .ok () s' ∧ s'.delivered = s.delivered ++ [⟨[], -1, some .maxBytesTooSmall, none⟩] := by
  have hdata' : p.data = Kafka.legacyMessage x := by
    rw [hdata]
    unfold Kafka.legacyMessageSet
    simp
  have hne : p.data ≠ [] := fun hh => by rw [← hdata', hh] at hr; simp at hr
  obtain ⟨s1, hch, ⟨a1, a2, a3, a4, a5, a6⟩, hi, hpid, hdec⟩ := w.skip hne _ _ hc
  rw [hdec]
  suffices hr : ∃ t : SD, t.hasOne = false ∧ t.delivered = s1.delivered ∧
      EndsAt (messageSetLoop env topic (Int32.ofInt p.partition) (Int32.ofInt p.data.length).toInt (s1.rd.limit + 1) 0 s1) t by
    obtain ⟨t, t1, t2, t5⟩ := hr
    obtain ⟨s', k1, k2, k3⟩ := finishOne_endsAt env hacc topic (Int32.ofInt p.partition) (Int32.ofInt p.data.length) s1 t a5 t1 [] (by rw [SD.deliver_nil]; exact t5)
    exact ⟨s', k1, by rw [k2, t2, a6]; rfl⟩
  have hsp := take_head x (p.data.length - r) (by rw [hdata']; omega)
  rw [← hdata'] at hsp
  have hlen : p.data.length = 17 + (oldTail x).length := by rw [hdata', old_head_tail, List.length_append, oldHead_length]
  have hg : ((oldTail x).take (p.data.length - r - 17)).length = p.data.length - r - 17 := by rw [List.length_take]; omega
  have hbig : r + 17 < p.data.length := by rw [hdata']; exact hr
  rw [hsp] at hch
  generalize (oldTail x).take (p.data.length - r - 17) = got at hch hg
  generalize hD : p.data.drop (p.data.length - r) = D at hch
  have hDl : D.length = r := by rw [← hD, List.length_drop]; omega
  rw [hi, messageSetLoop, if_pos (by omega), FM.bind_def, fetchRead_chunk (oldHead x) 17 (oldHead_length x) s1 got _ hch (by omega)]
  simp only
  have hm := magic01_short env topic (Int32.ofInt p.partition) x hx got [] [D ++ rest] (s1.skip (oldHead x) got [D ++ rest])
    (fun hh => by rw [hh] at hg; simp at hg; omega) (by omega) (by rw [List.append_nil]; rfl) (by
      show _ ≤ s1.rd.limit - _
      rw [oldHead_length]
      omega) (.inr rfl)
  rw [skip_skip] at hm
  rw [if_pos (old_magic x hx), FM.bind_def, hm]
  simp only
  generalize hT : s1.skip (oldHead x ++ got) [] [D ++ rest] = T
  have hTl : T.rd.limit = r := by
    rw [← hT]
    show s1.rd.limit - _ = r
    rw [List.length_append, oldHead_length]
    omega
  have hTf : r ≤ T.rd.flat.length := by
    rw [← hT]
    show r ≤ (List.flatten ([] :: [D ++ rest])).length
    simp
    omega
  have hav : T.avail.length = r := by unfold SD.avail; rw [List.length_take, hTl]; omega
  obtain ⟨t, ht1, ht2⟩ := fetchRead_short 17 T (show T.rd.limit ≤ T.rd.flat.length by omega) (by omega)
  rw [if_neg (by
    intro hh
    rw [hh] at hav
    simp at hav
    omega)] at ht1
  refine ⟨t, by rw [ht2.hasOne, ← hT]; exact a5, by rw [ht2.delivered, ← hT]; rfl, .inl ?_⟩
  rw [show s1.rd.limit = (s1.rd.limit - 1) + 1 by omega, messageSetLoop, if_pos (by omega), FM.bind_def, ht1]
  rfl

/-- One message, all but its last byte. -/
example : OldFits ⟨5, 1, 0, 77, none, some [1, 2, 3, 4, 5, 6, 7, 8]⟩ ∧ (Kafka.legacyMessageSet [⟨5, 1, 0, 77, none, some [1, 2, 3, 4, 5, 6, 7, 8]⟩]).length = 42 ∧
    InOne {} sampleHeader [116] (samplePartition ((Kafka.legacyMessageSet [⟨5, 1, 0, 77, none, some [1, 2, 3, 4, 5, 6, 7, 8]⟩]).take 41)) [99]
      (conn (sampleResponse ((Kafka.legacyMessageSet [⟨5, 1, 0, 77, none, some [1, 2, 3, 4, 5, 6, 7, 8]⟩]).take 41)).length
        [oneHead 10 sampleHeader [116] (samplePartition ((Kafka.legacyMessageSet [⟨5, 1, 0, 77, none, some [1, 2, 3, 4, 5, 6, 7, 8]⟩]).take 41)) ++
          ((Kafka.legacyMessageSet [⟨5, 1, 0, 77, none, some [1, 2, 3, 4, 5, 6, 7, 8]⟩]).take 41 ++ [99])]) :=
  ⟨sampleLegacy_fits _ (by simp [sampleLegacy]), by decide +kernel, sampleInOne _ rfl _ _ (by decide +kernel)⟩

/-- The same message, its last byte coming separately. -/
example : OnWire {} sampleHeader [116] (samplePartition (Kafka.legacyMessageSet [⟨5, 1, 0, 77, none, some [1, 2, 3, 4, 5, 6, 7, 8]⟩])) [99]
      (conn (sampleResponse (Kafka.legacyMessageSet [⟨5, 1, 0, 77, none, some [1, 2, 3, 4, 5, 6, 7, 8]⟩])).length
        [oneHead 10 sampleHeader [116] (samplePartition (Kafka.legacyMessageSet [⟨5, 1, 0, 77, none, some [1, 2, 3, 4, 5, 6, 7, 8]⟩])) ++
            (Kafka.legacyMessageSet [⟨5, 1, 0, 77, none, some [1, 2, 3, 4, 5, 6, 7, 8]⟩]).take 41,
          (Kafka.legacyMessageSet [⟨5, 1, 0, 77, none, some [1, 2, 3, 4, 5, 6, 7, 8]⟩]).drop 41 ++ [99]]) := by
  refine sampleWire _ rfl _ _ (by decide +kernel) _ _ ?_
  simp only [List.flatten_cons, List.flatten_nil, List.append_nil]
  rw [← List.append_assoc, List.take_append_drop]

end Healer
