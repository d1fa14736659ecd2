import Verif.Lemmas.Fetch
import Verif.Spec.Fetch

/-!
# Helper lemmas for the fetch decoder: what holds for every response
-/

namespace Healer

/-- `s'` is reached from `s` by reading forward and delivering messages. -/
structure Ext (s s' : SD) : Prop where
  le : s'.rd.limit ≤ s.rd.limit
  flat : s'.rd.flat = s.rd.flat.drop (s.rd.limit - s'.rd.limit)
  more : ∃ ms : List FullMessage, s'.delivered = s.delivered ++ ms ∧ (∀ m ∈ ms, m.error = none ∧ m.message ≠ none) ∧
    s'.hasOne = (s.hasOne || !ms.isEmpty)

theorem Ext.refl (s : SD) : Ext s s := ⟨Nat.le_refl _, by simp, [], by simp, by simp, by simp⟩

theorem Ext.trans {a b c : SD} (h1 : Ext a b) (h2 : Ext b c) : Ext a c := by
  refine ⟨Nat.le_trans h2.le h1.le, ?_, ?_⟩
  · rw [h2.flat, h1.flat, List.drop_drop]
    congr 1
    have := h1.le; have := h2.le
    omega
  · obtain ⟨m1, a1, b1, c1⟩ := h1.more
    obtain ⟨m2, a2, b2, c2⟩ := h2.more
    refine ⟨m1 ++ m2, by rw [a2, a1, List.append_assoc], ?_, ?_⟩
    · intro m hm
      rcases List.mem_append.1 hm with h | h
      · exact b1 m h
      · exact b2 m h
    · rw [c2, c1]; cases m1 <;> simp

/-- Running `m` from any state only reads forward and delivers messages. -/
structure Keeps {α : Type} (m : FM α) : Prop where
  all : ∀ s, (∀ a s', m s = .ok a s' → Ext s s') ∧ (∀ e s', m s = .err e s' → Ext s s')

theorem Keeps.pure {α : Type} (a : α) : Keeps (Pure.pure a : FM α) := by
  refine ⟨fun s => ?_⟩
  refine ⟨fun b s' h => ?_, fun e s' h => ?_⟩
  · cases h; exact Ext.refl s
  · cases h

theorem Keeps.fail {α : Type} (e : Err) : Keeps (FM.fail e : FM α) := by
  refine ⟨fun s => ?_⟩
  refine ⟨fun b s' h => ?_, fun e s' h => ?_⟩
  · cases h
  · cases h; exact Ext.refl s

theorem Keeps.crash {α : Type} : Keeps (FM.crash : FM α) := by
  refine ⟨fun s => ?_⟩
  refine ⟨fun b s' h => ?_, fun e s' h => ?_⟩ <;> cases h

theorem Keeps.lift {α : Type} (o : Out α) : Keeps (FM.lift o : FM α) := by
  refine ⟨fun s => ?_⟩
  unfold FM.lift
  cases o <;> refine ⟨fun b s' h => ?_, fun e s' h => ?_⟩ <;> cases h <;> exact Ext.refl s

theorem Keeps.bind {α β : Type} {m : FM α} {f : α → FM β} (h1 : Keeps m) (h2 : ∀ a, Keeps (f a)) :
    Keeps (m >>= f) := by
  refine ⟨fun s => ?_⟩
  rw [FM.bind_def]
  cases hm : m s with
  | ok a s1 =>
    have hs := (h1.all s).1 a s1 hm
    exact ⟨fun b s' h => hs.trans (((h2 a).all s1).1 b s' h), fun e s' h => hs.trans (((h2 a).all s1).2 e s' h)⟩
  | err e s1 =>
    refine ⟨fun b s' h => ?_, fun e' s' h => ?_⟩
    · cases h
    · cases h; exact (h1.all s).2 _ _ hm
  | panic => refine ⟨fun b s' h => ?_, fun e s' h => ?_⟩ <;> cases h

theorem Keeps.after {m : FM Unit} {fix : SD → Option Err → Option Err} (h : Keeps m) : Keeps (FM.after m fix) := by
  refine ⟨fun s => ?_⟩
  unfold FM.after
  cases hm : m s with
  | ok a s1 =>
    have hs := (h.all s).1 a s1 hm
    simp only
    cases fix s1 none <;> refine ⟨fun b s' h => ?_, fun e s' h => ?_⟩ <;> cases h <;> exact hs
  | err e s1 =>
    have hs := (h.all s).2 e s1 hm
    simp only
    cases fix s1 (some e) <;> refine ⟨fun b s' h => ?_, fun e s' h => ?_⟩ <;> cases h <;> exact hs
  | panic => refine ⟨fun b s' h => ?_, fun e s' h => ?_⟩ <;> cases h

theorem Keeps.ite {α : Type} {c : Prop} [Decidable c] {a b : FM α} (ha : Keeps a) (hb : Keeps b) :
    Keeps (if c then a else b) := by
  by_cases h : c
  · rw [if_pos h]; exact ha
  · rw [if_neg h]; exact hb

/-- Code that looks at the state first. -/
theorem Keeps.ofState {α : Type} {f : SD → FM α} (h : ∀ s, Keeps (f s)) : Keeps (fun s => f s s) :=
  ⟨fun s => (h s).all s⟩

theorem ext_read {s : SD} {n : Nat} {rd' : Rdr} {got : Bytes} (h1 : rd'.flat = s.rd.flat.drop n)
    (h2 : rd'.limit = s.rd.limit - n) (hn : n ≤ s.rd.limit) :
    Ext s { s with rd := rd', offset := s.offset + got.length } := by
  refine ⟨by simp only [h2]; omega, ?_, [], by simp, by simp, by simp⟩
  simp only [h1, h2]
  congr 1
  omega

theorem keeps_fetchRead (n : Nat) : Keeps (fetchRead n) := by
  refine ⟨fun s => ?_⟩
  unfold fetchRead
  by_cases hc : n ≤ (s.rd.flat.take s.rd.limit).length
  · obtain ⟨r', h1, h2, h3, h4⟩ := readFull_ok n s.rd hc
    rw [h1]
    have hl : n ≤ s.rd.limit := by rw [List.length_take] at hc; omega
    refine ⟨fun b s' h => ?_, fun e s' h => ?_⟩ <;> cases h
    exact ext_read h2 h3 hl
  · obtain ⟨r', h1, h2, h3, h4⟩ := readFull_short n s.rd (by omega)
    rw [h1]
    refine ⟨fun b s' h => ?_, fun e s' h => ?_⟩ <;> cases h
    refine ext_read (n := (s.rd.flat.take s.rd.limit).length) ?_ h3 (by simp; omega)
    rw [h2, List.length_take]
    by_cases hl : s.rd.limit ≤ s.rd.flat.length
    · rw [Nat.min_eq_left hl]
    · rw [Nat.min_eq_right (by omega), List.drop_eq_nil_of_le (by omega), List.drop_eq_nil_of_le (by omega)]

theorem keeps_fetchReadUpTo (n : Nat) : Keeps (fetchReadUpTo n) := by
  refine ⟨fun s => ?_⟩
  unfold fetchReadUpTo
  obtain ⟨r', h1, h2, h3, h4⟩ := readUpTo_spec n s.rd
  rw [h1]
  have hle : min n (s.rd.flat.take s.rd.limit).length ≤ s.rd.limit := by simp; omega
  refine ⟨fun b s' h => ?_, fun e s' h => ?_⟩
  · cases h; exact ext_read h2 h3 hle
  · cases h

theorem keeps_fetchRead1 (n : Nat) : Keeps (fetchRead1 n) := by
  refine ⟨fun s => ?_⟩
  unfold fetchRead1
  obtain ⟨got, e, r', h1, h2, h3, h4, h5, h6, h7⟩ := read1_flat n s.rd
  rw [h1]
  refine ⟨fun b s' h => ?_, fun e s' h => ?_⟩
  · cases h; exact ext_read (by rw [h2]; simp) h5 h4
  · cases h

theorem keeps_filterAndPut (env : FetchEnv) (topic : Bytes) (part : Int32) (m : Message) :
    Keeps (filterAndPutMessage env topic part m) := by
  refine ⟨fun s => ?_⟩
  unfold filterAndPutMessage putMessage
  by_cases h : m.offset ≥ env.startOffset
  · rw [if_pos h]
    by_cases ha : env.accept s.delivered.length = true
    · simp only [ha, if_true]
      refine ⟨fun b s' h => ?_, fun e s' h => ?_⟩
      · cases h
        exact ⟨Nat.le_refl _, by simp, [_], rfl, by simp, by simp⟩
      · cases h
    · simp only [ha]
      refine ⟨fun b s' h => ?_, fun e s' h => ?_⟩
      · cases h
      · cases h; exact Ext.refl s
  · rw [if_neg h]
    refine ⟨fun b s' h => ?_, fun e s' h => ?_⟩
    · cases h; exact Ext.refl s
    · cases h

theorem keeps_putAll (env : FetchEnv) (topic : Bytes) (part : Int32) (ms : List Message) :
    Keeps (putAll env topic part ms) := by
  induction ms with
  | nil => exact Keeps.pure ()
  | cons m ms ih => exact Keeps.bind (keeps_filterAndPut env topic part m) (fun _ => ih)

theorem keeps_putRecords (env : FetchEnv) (topic : Bytes) (part : Int32) (bo : Int64) (bt : UInt64) (n : Nat)
    (data : Bytes) (off : Int) : Keeps (putRecords env topic part bo bt n data off) := by
  induction n generalizing off with
  | zero => exact Keeps.pure ()
  | succ n ih =>
    refine ⟨fun s => ?_⟩
    unfold putRecords
    cases sliceFrom data off with
    | ok d =>
      simp only
      cases decodeToRecord d with
      | ok ro =>
        exact (Keeps.bind (keeps_filterAndPut env topic part _) (fun _ => ih _)).all s
      | err e =>
        simp only
        by_cases he : e = .uncompleteRecord
        · rw [if_pos he]; exact (Keeps.pure ()).all s
        · rw [if_neg he]; exact (Keeps.fail (α := Unit) e).all s
      | panic => exact (Keeps.crash (α := Unit)).all s
    | err e => exact (Keeps.fail (α := Unit) e).all s
    | panic => exact (Keeps.crash (α := Unit)).all s

/-- The part of `decodeBatchRecords` after reading the data. -/
def afterRead (env : FetchEnv) (topic : Bytes) (part : Int32) (bo : Int64) (bt : UInt64)
    (c : Int8) (count : Nat) (x : Bytes × Option Err) : FM Unit := fun s' =>
  match uncompress env c x.1 x.2 with
  | .error e => if fetchEnd env s' && s'.hasOne then .ok () s' else .err (.wrapped e) s'
  | .ok raw => putRecords env topic part bo bt count raw 0 s'

theorem keeps_decodeBatchRecords (env : FetchEnv) (topic : Bytes) (part : Int32) (bo : Int64) (bt : UInt64)
    (c : Int8) (count : Nat) (size : Int) : Keeps (decodeBatchRecords env topic part bo bt c count size) := by
  have : decodeBatchRecords env topic part bo bt c count size =
      (fetchReadUpTo size.toNat >>= afterRead env topic part bo bt c count) := by
    funext s
    unfold decodeBatchRecords
    rw [FM.bind_def]
    cases fetchReadUpTo size.toNat s <;> rfl
  rw [this]
  refine Keeps.bind (keeps_fetchReadUpTo _) (fun x => ?_)
  refine ⟨fun s => ?_⟩
  unfold afterRead
  cases uncompress env c x.1 x.2 with
  | error e =>
    simp only
    by_cases h : (fetchEnd env s && s.hasOne) = true
    · rw [if_pos h]; exact (Keeps.pure ()).all s
    · rw [if_neg h]; exact (Keeps.fail (α := Unit) _).all s
  | ok raw => exact (keeps_putRecords env topic part bo bt count raw 0).all s

theorem keeps_decodeRecordsMagic2 (env : FetchEnv) (topic : Bytes) (part : Int32) (h17 : Bytes) :
    Keeps (decodeRecordsMagic2 env topic part h17) := by
  unfold decodeRecordsMagic2
  refine Keeps.bind (keeps_fetchRead 44) (fun x => ?_)
  obtain ⟨got, e⟩ := x
  cases e with
  | some e => exact Keeps.ite (Keeps.pure _) (Keeps.fail _)
  | none =>
    exact Keeps.ite (Keeps.pure _) (Keeps.bind (keeps_decodeBatchRecords ..) (fun _ => Keeps.pure _))

theorem keeps_putLegacy (env : FetchEnv) (topic : Bytes) (part : Int32) (v : Bytes) :
    Keeps (putLegacy env topic part v) := by
  unfold putLegacy
  refine Keeps.bind (Keeps.lift _) (fun ms => ?_)
  exact Keeps.ite (Keeps.pure _) (Keeps.bind (keeps_putAll ..) (fun _ => Keeps.pure _))

theorem keeps_legacyLoop (env : FetchEnv) (topic : Bytes) (part : Int32) (fuel : Nat) (acc : Int) :
    Keeps (legacyLoop env topic part fuel acc) := by
  induction fuel generalizing acc with
  | zero => exact Keeps.fail _
  | succ fuel ih =>
    unfold legacyLoop
    refine Keeps.bind (keeps_fetchRead 12) (fun x => ?_)
    obtain ⟨buf, e⟩ := x
    cases e with
    | some e => exact Keeps.fail _
    | none =>
      refine Keeps.bind (keeps_fetchRead1 _) (fun y => ?_)
      obtain ⟨got, e⟩ := y
      cases e with
      | some e => exact Keeps.fail _
      | none =>
        refine Keeps.ite (Keeps.pure _) (Keeps.bind (keeps_putLegacy ..) (fun more => ?_))
        exact Keeps.ite (ih _) (Keeps.pure _)

theorem keeps_decodeLegacy (env : FetchEnv) (topic : Bytes) (part : Int32) (h17 : Bytes) :
    Keeps (decodeMessageSetMagic0or1 env topic part h17) := by
  unfold decodeMessageSetMagic0or1
  refine Keeps.ite (Keeps.pure _) (Keeps.bind (keeps_fetchRead1 _) (fun x => ?_))
  obtain ⟨got, e⟩ := x
  cases e with
  | some e => exact Keeps.fail _
  | none =>
    refine Keeps.ite (Keeps.pure _) (Keeps.bind (keeps_putLegacy ..) (fun more => ?_))
    exact Keeps.ite (Keeps.ofState (f := fun s => legacyLoop env topic part (s.rd.limit + 1) got.length)
      (fun s => keeps_legacyLoop ..)) (Keeps.pure _)

theorem keeps_messageSetLoop (env : FetchEnv) (topic : Bytes) (part : Int32) (size : Int) (fuel : Nat) (off : Int) :
    Keeps (messageSetLoop env topic part size fuel off) := by
  induction fuel generalizing off with
  | zero => exact Keeps.fail _
  | succ fuel ih =>
    unfold messageSetLoop
    refine Keeps.ite (Keeps.bind (keeps_fetchRead 17) (fun x => ?_)) (Keeps.pure _)
    obtain ⟨h17, e⟩ := x
    cases e with
    | some e => exact Keeps.ite (Keeps.pure _) (Keeps.fail _)
    | none =>
      exact Keeps.bind (Keeps.ite (keeps_decodeLegacy ..) (keeps_decodeRecordsMagic2 ..)) (fun o => ih _)

theorem keeps_decodeMessageSet (env : FetchEnv) (topic : Bytes) (part : Int32) (size : Int32) :
    Keeps (decodeMessageSet env topic part size) :=
  Keeps.after (Keeps.ofState (f := fun s => messageSetLoop env topic part size.toInt (s.rd.limit + 1) 0)
    (fun s => keeps_messageSetLoop ..))

theorem keeps_rdBuf (k : Nat) (buf : Bytes) : Keeps (rdBuf k buf) := by
  unfold rdBuf
  refine Keeps.bind (keeps_fetchRead1 k) (fun x => ?_)
  obtain ⟨got, e⟩ := x
  cases e with
  | some e => exact Keeps.fail _
  | none => exact Keeps.pure _

theorem keeps_rdAborted (n : Nat) (buf : Bytes) : Keeps (rdAborted n buf) := by
  induction n generalizing buf with
  | zero => exact Keeps.pure _
  | succ n ih => exact Keeps.bind (keeps_rdBuf ..) (fun _ => Keeps.bind (keeps_rdBuf ..) (fun _ => ih _))

theorem keeps_partitionHead (v : UInt16) : Keeps (partitionHead v) := by
  unfold partitionHead
  refine Keeps.bind (keeps_rdBuf ..) (fun _ => Keeps.bind (keeps_rdBuf ..) (fun _ => Keeps.ite (Keeps.fail _) ?_))
  refine Keeps.bind (keeps_rdBuf ..) (fun b => Keeps.bind ?_ (fun _ => Keeps.bind (keeps_rdBuf ..) (fun _ => Keeps.pure _)))
  unfold rdPartitionV7
  refine Keeps.ite ?_ (Keeps.pure _)
  exact Keeps.bind (keeps_rdBuf ..) (fun _ => Keeps.bind (keeps_rdBuf ..) (fun _ => Keeps.bind (keeps_rdBuf ..)
    (fun _ => keeps_rdAborted ..)))

theorem keeps_decodePartitionResponse (env : FetchEnv) (topic : Bytes) : Keeps (decodePartitionResponse env topic) := by
  refine Keeps.after ?_
  unfold partitionBody
  refine Keeps.bind (keeps_partitionHead _) (fun x => ?_)
  exact Keeps.ite (Keeps.pure _) (keeps_decodeMessageSet ..)

theorem keeps_rdExact (n : Nat) : Keeps (rdExact n) := by
  unfold rdExact
  refine Keeps.bind (keeps_fetchRead n) (fun x => ?_)
  obtain ⟨got, e⟩ := x
  cases e with
  | some e => exact Keeps.fail _
  | none => exact Keeps.pure _

theorem keeps_times (n : Nat) {m : FM Unit} (h : Keeps m) : Keeps (FM.times n m) := by
  induction n with
  | zero => exact Keeps.pure _
  | succ n ih => exact Keeps.bind h (fun _ => ih)

theorem keeps_decodeResponses (env : FetchEnv) : Keeps (decodeResponses env) := by
  unfold decodeResponses topicHead
  refine Keeps.bind (Keeps.bind (keeps_rdExact _) (fun _ => Keeps.bind (keeps_rdExact _) (fun _ =>
    Keeps.bind (keeps_rdExact _) (fun _ => Keeps.pure _)))) (fun x => ?_)
  exact Keeps.ite (Keeps.fail _) (keeps_times _ (keeps_decodePartitionResponse ..))

/-- Only the reading part of `Ext`. -/
def Moved (s s' : SD) : Prop :=
  s'.rd.limit ≤ s.rd.limit ∧ s'.rd.flat = s.rd.flat.drop (s.rd.limit - s'.rd.limit)

theorem Ext.moved {s s' : SD} (h : Ext s s') : Moved s s' := ⟨h.le, h.flat⟩

theorem Moved.trans {a b c : SD} (h1 : Moved a b) (h2 : Moved b c) : Moved a c := by
  obtain ⟨l1, f1⟩ := h1
  obtain ⟨l2, f2⟩ := h2
  refine ⟨by omega, ?_⟩
  rw [f2, f1, List.drop_drop]
  congr 1
  omega

/-- What happens to the state, whatever the result (a crash ends the program). -/
def Res.All {α : Type} (r : Res α) (P : SD → Prop) : Prop :=
  (∀ a s', r = .ok a s' → P s') ∧ (∀ e s', r = .err e s' → P s')

theorem moved_responsesLoop (env : FetchEnv) (n : Nat) (s : SD) : (responsesLoop env n s).All (Moved s) := by
  induction n generalizing s with
  | zero => exact ⟨fun a s' h => by cases h; exact (Ext.refl s).moved, fun e s' h => by cases h⟩
  | succ n ih =>
    unfold responsesLoop
    have hk := (keeps_decodeResponses env).all s
    cases hd : decodeResponses env s with
    | ok a s1 =>
      have h1 := (hk.1 a s1 hd).moved
      exact ⟨fun a s' h => h1.trans ((ih s1).1 a s' h), fun e s' h => h1.trans ((ih s1).2 e s' h)⟩
    | err e s1 =>
      have h1 := (hk.2 e s1 hd).moved
      simp only
      unfold putMessage
      by_cases ha : env.accept s1.delivered.length = true
      · rw [if_pos ha]
        exact ⟨fun a s' h => by cases h; exact h1, fun e s' h => by cases h⟩
      · rw [if_neg ha]
        exact ⟨fun a s' h => (by cases h), fun e s' h => (by cases h; exact h1)⟩
    | panic => exact ⟨fun a s' h => (by cases h), fun e s' h => (by cases h)⟩

/-- Everything of the response has been read, or the connection is at its end. -/
def Drained (s s' : SD) : Prop :=
  (s'.rd.limit = 0 ∨ s'.rd.flat = []) ∧ s'.rd.flat = s.rd.flat.drop s.rd.limit

theorem drained_of_moved {s s1 : SD} (h : Moved s s1) (off : Nat) :
    Drained s { s1 with rd := s1.rd.drain, offset := off } := by
  obtain ⟨l, f⟩ := h
  obtain ⟨d1, d2, d3⟩ := drain_spec s1.rd
  refine ⟨d1, ?_⟩
  simp only [d2, f, List.drop_drop]
  congr 1
  omega

theorem drained_drainAfter {m : FM Unit} {s0 s : SD} (h0 : Moved s0 s) (h : (m s).All (Moved s)) :
    (drainAfter m s).All (Drained s0) := by
  unfold drainAfter
  cases hm : m s with
  | ok a s1 =>
    exact ⟨fun a s' h' => by cases h'; exact drained_of_moved (h0.trans (h.1 _ _ hm)) _, fun e s' h' => by cases h'⟩
  | err e s1 =>
    exact ⟨fun a s' h' => (by cases h'), fun e s' h' => (by cases h'; exact drained_of_moved (h0.trans (h.2 _ _ hm)) _)⟩
  | panic => exact ⟨fun a s' h => (by cases h), fun e s' h => (by cases h)⟩

theorem rdExact_err_drained (n : Nat) (s : SD) (e : Err) (s' : SD) (h : rdExact n s = .err e s') : Drained s s' := by
  unfold rdExact at h
  rw [FM.bind_def] at h
  by_cases hn : n ≤ (s.rd.flat.take s.rd.limit).length
  · obtain ⟨s1, h1, h2⟩ := fetchRead_ok n s hn
    rw [h1] at h
    cases h
  · obtain ⟨r', h1, h2, h3, h4⟩ := readFull_short n s.rd (by omega)
    unfold fetchRead at h
    rw [h1] at h
    simp only at h
    cases h
    refine ⟨?_, h2⟩
    by_cases hl : s.rd.limit ≤ s.rd.flat.length
    · left
      show r'.limit = 0
      rw [h3, List.length_take]; omega
    · right
      show r'.flat = []
      rw [h2]
      exact List.drop_eq_nil_of_le (by omega)

theorem decodeFetchHeader_err (v : UInt16) (s : SD) (e : Err) (s' : SD) (h : decodeFetchHeader v s = .err e s') :
    Drained s s' := by
  unfold decodeFetchHeader at h
  by_cases h0 : v = 0
  · rw [if_pos h0, FM.bind_def] at h
    cases hr : rdExact 8 s with
    | ok a s1 => rw [hr] at h; cases h
    | err e1 s1 => rw [hr] at h; cases h; exact rdExact_err_drained _ _ _ _ hr
    | panic => rw [hr] at h; cases h
  · rw [if_neg h0] at h
    by_cases h7 : v = 7 ∨ v = 10
    · rw [if_pos h7, FM.bind_def] at h
      cases hr : rdExact 18 s with
      | ok a s1 => rw [hr] at h; cases h
      | err e1 s1 => rw [hr] at h; cases h; exact rdExact_err_drained _ _ _ _ hr
      | panic => rw [hr] at h; cases h
    · rw [if_neg h7] at h; cases h

theorem keeps_decodeFetchHeader (v : UInt16) : Keeps (decodeFetchHeader v) := by
  unfold decodeFetchHeader
  exact Keeps.ite (Keeps.bind (keeps_rdExact _) (fun _ => Keeps.pure _))
    (Keeps.ite (Keeps.bind (keeps_rdExact _) (fun _ => Keeps.pure _)) Keeps.crash)

theorem streamDecode_drained (env : FetchEnv) (s : SD) : (streamDecode env s).All (Drained s) := by
  unfold streamDecode
  rw [FM.bind_def]
  have hk := (keeps_decodeFetchHeader env.version).all { s with offset := 0, hasOne := false }
  cases hd : decodeFetchHeader env.version { s with offset := 0, hasOne := false } with
  | ok n s1 =>
    exact drained_drainAfter (s0 := s) (hk.1 n s1 hd).moved (moved_responsesLoop env n s1)
  | err e s1 =>
    exact ⟨fun a s' h => (by cases h), fun e s' h => (by cases h; exact decodeFetchHeader_err _ _ _ _ hd : Drained { s with offset := 0, hasOne := false } _)⟩
  | panic => exact ⟨fun a s' h => (by cases h), fun e s' h => (by cases h)⟩

end Healer
