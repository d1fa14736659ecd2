import Verif.Model.Tools
import Verif.Props.Brokers2
import Verif.Props.Builders
import Verif.Props.Client
import Mathlib.Data.List.Induction

/-!
# C127, C128, C132: get-pending, reset-offset and the lag over HTTP
-/

namespace Healer

/-! ## What an orderly cluster answers -/

/-- The topic has the partitions `ps`, and their leaders answer with the offsets `off`.  Requests may fail at any time. -/
structure Orderly {W : Type} (net : Net W) (topic : Bytes) (ps : List Int32) (off : Int32 → Int64) : Prop where
  once : ps.Nodup
  metadata : ∀ h w r, (net.metadata h [topic] w).1 = (r, none) → ∃ t, r.topics = [t] ∧ (t.partitions.map PartitionMetadataInfo.partitionID).Perm ps
  offsets : ∀ h pids w r, (net.offsets h topic pids w).1 = (r, none) →
    ((r.topicPartitionOffsets.flatMap Prod.snd).map fun e => (e.partition, e.getOffset)).Perm (pids.map fun p => (p, Out.ok (off p)))

/-- The coordinator answers with the committed offsets `com` of the partitions asked for, or fails. -/
def Remembers {W : Type} (fetch : Nat → OffsetFetchRequest → W → Except Err OffsetFetchResponse × W) (group topic : Bytes) (com : Int32 → Int64) : Prop :=
  ∀ h req w r, req.groupID = group → (fetch h req w).1 = .ok r →
    ∀ p, (∃ t ∈ req.topics, t.topic = topic ∧ p ∈ t.partitions) →
      (∃ e ∈ r.topics.flatMap Prod.snd, e.partitionID = p) ∧ ∀ e ∈ r.topics.flatMap Prod.snd, e.partitionID = p → e.offset = com p

/-! ## Maps filled in a loop -/

theorem setAll_get {κ υ : Type} [DecidableEq κ] (l : List (κ × υ)) (m : AMap κ υ) (k : κ) (v : υ)
    (h1 : ∀ e ∈ l, e.1 = k → e.2 = v) : (setAll l m).get k = if k ∈ l.map Prod.fst then some v else m.get k := by
  induction l generalizing m with
  | nil => rfl
  | cons e l ih =>
    show (setAll l (m.set e.1 e.2)).get k = _
    rw [ih _ fun x hx => h1 x (List.mem_cons_of_mem _ hx), AMap.get_set]
    by_cases hk : k ∈ l.map Prod.fst
    · simp [hk]
    · by_cases he : k = e.1
      · have := h1 e (by simp) he.symm
        simp [hk, he, this]
      · simp [hk, he]

theorem setAll_nodup {κ υ : Type} [DecidableEq κ] (l : List (κ × υ)) (m : AMap κ υ) (h : m.keys.Nodup) : (setAll l m).keys.Nodup := by
  induction l generalizing m with
  | nil => exact h
  | cons e l ih => exact ih _ (AMap.nodup_keys_set _ _ _ h)

theorem offsetsOf_ok (off : Int32 → Int64) (es : List PartitionOffset) (h : ∀ e ∈ es, e.getOffset = .ok (off e.partition)) :
    offsetsOf es = .ok (es.map fun e => (e.partition, off e.partition)) := by
  induction es with
  | nil => rfl
  | cons e es ih =>
    unfold offsetsOf
    rw [h e (by simp), ih fun x hx => h x (List.mem_cons_of_mem _ hx)]
    rfl

namespace Brokers

variable {W : Type} (net : Net W)

theorem andThen_ok {α β : Type} {x : Out α × Brokers W} {f : α → Brokers W → Out β × Brokers W} {c : β} {b' : Brokers W}
    (h : andThen x f = (.ok c, b')) : ∃ a b, x = (.ok a, b) ∧ f a b = (.ok c, b') := by
  obtain ⟨o, b⟩ := x
  cases o with
  | ok a => exact ⟨a, b, rfl, h⟩
  | err e => simp [andThen] at h
  | panic => simp [andThen] at h

theorem metadataLoop_answer (ts : List Bytes) (is : List BrokerInfo) (b b' : Brokers W) (r : MetadataResponse)
    (h : metadataLoop net ts is b = ((r, none), b')) : ∃ k w, (net.metadata k ts w).1 = (r, none) := by
  induction is generalizing b with
  | nil => simp [metadataLoop] at h
  | cons i is ih =>
    unfold metadataLoop at h
    rcases hb : getBroker net i.nodeID b with ⟨_ | k, b1⟩
    · rw [hb] at h
      exact ih _ h
    · rw [hb] at h
      simp only at h
      rcases hm : askMetadata net k.1 ts b1 with ⟨⟨r', _ | e⟩, b2⟩
      · rw [hm] at h
        simp only [Prod.mk.injEq, and_true] at h
        obtain ⟨rfl, rfl⟩ := h
        unfold askMetadata at hm
        simp only [Prod.mk.injEq] at hm
        exact ⟨k.1, b1.world, hm.1⟩
      · rw [hm] at h
        simp only at h
        split at h
        · simp at h
        · exact ih _ h

theorem requestMetaData_answer (ts : List Bytes) (b b' : Brokers W) (r : MetadataResponse)
    (h : requestMetaData net ts b = ((r, none), b')) : ∃ k w, (net.metadata k ts w).1 = (r, none) := by
  unfold requestMetaData at h
  exact metadataLoop_answer net ts _ _ _ _ h

/-- the entries of offsets answers -/
def entries (rs : List OffsetsResponse) : List PartitionOffset := rs.flatMap fun r => r.topicPartitionOffsets.flatMap Prod.snd

variable {net}

theorem offsetsLoop_entries {topic : Bytes} {ps : List Int32} {off : Int32 → Int64} (ho : Orderly net topic ps off)
    (ls : List (Int32 × List Int32)) (acc : List OffsetsResponse) (b b' : Brokers W) (rs : List OffsetsResponse)
    (h : offsetsLoop net topic ls acc b = (.ok rs, b')) :
    ∃ new, rs = acc ++ new ∧ ((entries new).map fun e => (e.partition, e.getOffset)).Perm ((ls.flatMap Prod.snd).map fun p => (p, Out.ok (off p))) := by
  induction ls generalizing acc b with
  | nil =>
    simp only [offsetsLoop, Prod.mk.injEq, Except.ok.injEq] at h
    exact ⟨[], by simp [h.1], by simp [entries]⟩
  | cons l ls ih =>
    obtain ⟨l, pids⟩ := l
    unfold offsetsLoop at h
    rcases hb : getBroker net l b with ⟨_ | k, b1⟩
    · rw [hb] at h
      simp at h
    · rw [hb] at h
      simp only at h
      rcases ha : askOffsets net k.1 topic pids b1 with ⟨⟨r, _ | e⟩, b2⟩
      · rw [ha] at h
        simp only at h
        obtain ⟨new, hn, hp⟩ := ih _ _ h
        unfold askOffsets at ha
        simp only [Prod.mk.injEq] at ha
        have hr := ho.offsets _ _ _ _ ha.1
        refine ⟨r :: new, by simp [hn], ?_⟩
        simp only [entries, List.flatMap_cons, List.map_append] at hp ⊢
        exact hr.append hp
      · rw [ha] at h
        simp at h

/-- the offsets of all partitions, each once -/
theorem requestOffsets_entries {topic : Bytes} {ps : List Int32} {off : Int32 → Int64} (ho : Orderly net topic ps off) (b b' : Brokers W)
    (rs : List OffsetsResponse) (h : requestOffsets net topic (-1) b = (.ok rs, b')) :
    ((entries rs).map fun e => (e.partition, e.getOffset)).Perm (ps.map fun p => (p, Out.ok (off p))) := by
  unfold requestOffsets at h
  rcases hm : requestMetaData net [topic] b with ⟨⟨r, _ | e⟩, b1⟩
  · rw [hm] at h
    obtain ⟨k, w, hk⟩ := requestMetaData_answer net _ _ _ _ hm
    obtain ⟨t, ht, hp⟩ := ho.metadata _ _ _ hk
    have hlt : ¬ ((-1 : Int32) ≥ 0) := by decide
    simp only [ht, if_neg hlt] at h
    rcases hl : offsetsLoop net topic (order net (byLeader t.partitions) b1).1 [] (order net (byLeader t.partitions) b1).2 with ⟨x, b2⟩
    rw [hl] at h
    cases x with
    | error e => simp [Out.ofExcept] at h
    | ok rs' =>
      simp only [Out.ofExcept, Prod.mk.injEq, Out.ok.injEq] at h
      obtain ⟨rfl, rfl⟩ := h
      obtain ⟨new, hn, hnp⟩ := offsetsLoop_entries ho _ _ _ _ _ hl
      simp only [List.nil_append] at hn
      subst hn
      have hg := (byLeader_groups t.partitions).perm_left (ls' := (order net (byLeader t.partitions) b1).1) (net.shuffle_perm _ _)
      exact hnp.trans ((hg.perm.trans hp).map _)
  · rw [hm] at h
    simp at h

theorem offsetMap_get {ps : List Int32} {off : Int32 → Int64} (rs : List OffsetsResponse)
    (h : ((entries rs).map fun e => (e.partition, e.getOffset)).Perm (ps.map fun p => (p, Out.ok (off p)))) :
    ∃ m : AMap Int32 Int64, offsetMap rs = .ok m ∧ m.keys.Nodup ∧ ∀ p, m.get p = if p ∈ ps then some (off p) else none := by
  have hok : ∀ e ∈ entries rs, e.getOffset = .ok (off e.partition) := by
    intro e he
    have : (e.partition, e.getOffset) ∈ ps.map fun p => (p, Out.ok (off p)) := h.mem_iff.1 (List.mem_map.2 ⟨e, he, rfl⟩)
    obtain ⟨p, _, hp⟩ := List.mem_map.1 this
    simp only [Prod.mk.injEq] at hp
    rw [← hp.2, hp.1]
  have hmem : ∀ p, p ∈ (entries rs).map (fun e => e.partition) ↔ p ∈ ps := by
    intro p
    have := (h.map Prod.fst).mem_iff (a := p)
    simpa using this
  refine ⟨_, ?_, setAll_nodup ((entries rs).map fun e => (e.partition, off e.partition)) [] (by simp [AMap.keys]), ?_⟩
  · unfold offsetMap
    have := offsetsOf_ok off (entries rs) hok
    unfold entries at this
    rw [this]
    rfl
  · intro p
    rw [setAll_get _ _ p (off p) (by
      intro e he hk
      obtain ⟨x, _, rfl⟩ := List.mem_map.1 he
      simp only at hk ⊢
      rw [hk])]
    have := hmem p
    simp only [List.map_map, AMap.get_nil]
    have heq : (p ∈ List.map (Prod.fst ∘ fun e : PartitionOffset => (e.partition, off e.partition)) (entries rs)) ↔ p ∈ ps := this
    by_cases hp : p ∈ ps
    · rw [if_pos (heq.2 hp), if_pos hp]
    · rw [if_neg (fun hh => hp (heq.1 hh)), if_neg hp]

theorem getOffset_ok {topic : Bytes} {ps : List Int32} {off : Int32 → Int64} (ho : Orderly net topic ps off) (b b' : Brokers W)
    (m : AMap Int32 Int64) (h : getOffset net topic b = (.ok m, b')) :
    m.keys.Nodup ∧ ∀ p, m.get p = if p ∈ ps then some (off p) else none := by
  obtain ⟨rs, b1, h1, h2⟩ := andThen_ok h
  obtain ⟨m', hm', hn, hg⟩ := offsetMap_get rs (requestOffsets_entries ho _ _ _ h1)
  simp only [Prod.mk.injEq] at h2
  rw [hm'] at h2
  cases h2.1
  exact ⟨hn, hg⟩

theorem committedRequest_exact (group topic : Bytes) (ps : List Int32) :
    (committedRequest group topic ps).groupID = group ∧ ListsExactly (committedRequest group topic ps).topics (ps.map fun p => (topic, p)) := by
  constructor
  · unfold committedRequest
    generalize hr : ({ groupID := group } : OffsetFetchRequest) = r
    have : r.groupID = group := by rw [← hr]
    clear hr
    induction ps generalizing r with
    | nil => exact this
    | cons p ps ih => exact ih _ this
  · have := C75_offset_fetch_partial group (ps.map fun p => (topic, p))
    rw [List.foldl_map] at this
    exact this

theorem getCommitted_ok {fetch : Nat → OffsetFetchRequest → W → Except Err OffsetFetchResponse × W} {group topic : Bytes} {com : Int32 → Int64}
    (hc : Remembers fetch group topic com) (ps : List Int32) (b b' : Brokers W) (m : AMap Int32 Int64)
    (h : getCommitted net fetch group topic ps b = (.ok m, b')) : ∀ p ∈ ps, m.get p = some (com p) := by
  obtain ⟨k, b1, _, h2⟩ := andThen_ok h
  intro p hp
  have hx := committedRequest_exact group topic ps
  rcases hf : fetch k (committedRequest group topic ps) b1.world with ⟨_ | r, w⟩
  · rw [hf] at h2
    simp at h2
  · rw [hf] at h2
    simp only [Prod.mk.injEq, Out.ok.injEq] at h2
    have hin := (hx.2.exact topic p).2 (List.mem_map.2 ⟨p, hp, rfl⟩)
    obtain ⟨hex, hall⟩ := hc k _ b1.world r hx.1 (by rw [hf]) p hin
    rw [← h2.1]
    unfold committedMap
    rw [setAll_get _ _ p (com p)]
    · rw [if_pos]
      obtain ⟨e, he, hep⟩ := hex
      simp only [List.map_map]
      exact List.mem_map.2 ⟨e, he, hep⟩
    · intro e he hk
      obtain ⟨x, hx', rfl⟩ := List.mem_map.1 he
      exact hall x hx' hk

theorem getPartitions_ok {topic : Bytes} {ps : List Int32} {off : Int32 → Int64} (ho : Orderly net topic ps off) (b b' : Brokers W)
    (l : List Int32) (h : getPartitions net topic b = (.ok l, b')) : l.Perm ps ∧ l.Pairwise (· < ·) := by
  unfold getPartitions at h
  rcases hm : requestMetaData net [topic] b with ⟨⟨r, _ | e⟩, b1⟩
  · rw [hm] at h
    obtain ⟨k, w, hk⟩ := requestMetaData_answer net _ _ _ _ hm
    obtain ⟨t, ht, hp⟩ := ho.metadata _ _ _ hk
    simp only [ht, List.flatMap_cons, List.flatMap_nil, List.append_nil, Prod.mk.injEq, Out.ok.injEq] at h
    have hl := h.1
    have hperm : l.Perm ps := by
      rw [← hl]
      exact (goSort_perm _ _).trans hp
    refine ⟨hperm, ?_⟩
    have hs : l.Pairwise fun a b => decide (a ≤ b) = true := by
      rw [← hl]
      refine goSort_pairwise ?_ ?_ _
      · intro a b c h1 h2
        simp only [decide_eq_true_eq, Int32.le_iff_toInt_le] at *
        omega
      · intro a b
        simp only [Bool.or_eq_true, decide_eq_true_eq, Int32.le_iff_toInt_le]
        omega
    have hn : l.Nodup := hperm.nodup_iff.2 ho.once
    refine (hs.and hn).imp ?_
    intro a b hab
    rw [Int32.lt_iff_toInt_lt]
    have h1 := hab.1
    simp only [decide_eq_true_eq, Int32.le_iff_toInt_le] at h1
    have h2 : a.toInt ≠ b.toInt := fun e => hab.2 (Int32.toInt_inj.1 e)
    omega
  · rw [hm] at h
    simp at h

end Brokers

open Brokers

variable {W : Type}

/-! ## C127: get-pending -/

/-- C127: for a topic with partitions `ps`, end offsets `off` and positions `com` committed by the group, get-pending either fails or prints one line per partition,
ascending, with its end offset, its committed position and the number of messages between them; the last line holds the sums.
Missing for the full statement: partitions without a committed position (`C127_violated_uncommitted`). -/
theorem C127_partial (net : Net W) (fetch : Nat → OffsetFetchRequest → W → Except Err OffsetFetchResponse × W) (group topic : Bytes) (ps : List Int32)
    (off com : Int32 → Int64) (ho : Orderly net topic ps off) (hc : Remembers fetch group topic com)
    (hr : ∀ p ∈ ps, 0 ≤ (com p).toInt ∧ (com p).toInt ≤ (off p).toInt) (b b' : Brokers W) (rows : List PendingRow)
    (h : getPending net fetch group topic b = (.ok rows, b')) :
    (rows.map PendingRow.partition).Perm ps ∧ (rows.map PendingRow.partition).Pairwise (· < ·) ∧
    (∀ row ∈ rows, row.offset = off row.partition ∧ row.committed = com row.partition ∧
      row.lag.toInt = (off row.partition).toInt - (com row.partition).toInt) := by
  obtain ⟨offsets, b1, h1, h⟩ := andThen_ok h
  obtain ⟨l, b2, h2, h⟩ := andThen_ok h
  obtain ⟨committed, b3, h3, h⟩ := andThen_ok h
  simp only [Prod.mk.injEq, Out.ok.injEq] at h
  have hmap : rows.map PendingRow.partition = l := by
    rw [← h.1, List.map_map]
    have : (PendingRow.partition ∘ pendingRow offsets committed) = id := by
      funext p
      rfl
    rw [this, List.map_id]
  obtain ⟨hperm, hlt⟩ := getPartitions_ok ho _ _ _ h2
  refine ⟨hmap ▸ hperm, hmap ▸ hlt, ?_⟩
  intro row hrow
  rw [← h.1] at hrow
  obtain ⟨p, hp, rfl⟩ := List.mem_map.1 hrow
  have hps := hperm.mem_iff.1 hp
  have ho' := (getOffset_ok ho _ _ _ h1).2 p
  rw [if_pos hps] at ho'
  have hc' := getCommitted_ok hc _ _ _ _ h3 p hp
  have hrp := hr p hps
  have hne : off p ≠ -1 := by
    intro e
    rw [e] at hrp
    have : (-1 : Int64).toInt = -1 := by decide
    omega
  simp only [pendingRow, ho', hc', Option.getD_some, if_neg hne, true_and]
  have hlt := (off p).toInt_lt
  rw [Int64.toInt_sub, Int.bmod_eq_of_le] <;> omega

/-- C127, for partitions whose end offset is not known: where the leader gives -1 and no error, the line shows -1 and a lag of 0, whatever was committed.
Missing for the full statement: partitions without a committed position (`C127_violated_uncommitted`). -/
theorem C127_unknown_partial (net : Net W) (fetch : Nat → OffsetFetchRequest → W → Except Err OffsetFetchResponse × W) (group topic : Bytes) (ps : List Int32)
    (off com : Int32 → Int64) (ho : Orderly net topic ps off) (hc : Remembers fetch group topic com) (b b' : Brokers W) (rows : List PendingRow)
    (h : getPending net fetch group topic b = (.ok rows, b')) (p : Int32) (hp : p ∈ ps) (hu : off p = -1) :
    (⟨p, -1, com p, 0⟩ : PendingRow) ∈ rows := by
  obtain ⟨offsets, b1, h1, h⟩ := andThen_ok h
  obtain ⟨l, b2, h2, h⟩ := andThen_ok h
  obtain ⟨committed, b3, h3, h⟩ := andThen_ok h
  simp only [Prod.mk.injEq, Out.ok.injEq] at h
  obtain ⟨hperm, -⟩ := getPartitions_ok ho _ _ _ h2
  have hl := hperm.mem_iff.2 hp
  rw [← h.1]
  refine List.mem_map.2 ⟨p, hl, ?_⟩
  have ho' := (getOffset_ok ho _ _ _ h1).2 p
  rw [if_pos hp] at ho'
  have hc' := getCommitted_ok hc _ _ _ _ h3 p hl
  simp only [pendingRow, ho', hc', Option.getD_some, hu, if_pos]

/-- the line of totals -/
theorem totals_sum (rows : List PendingRow) (t : Int64 × Int64 × Int64) :
    rows.foldl (fun t r => (t.1 + r.offset, t.2.1 + r.committed, t.2.2 + r.lag)) t =
      (t.1 + (rows.map PendingRow.offset).sum, t.2.1 + (rows.map PendingRow.committed).sum, t.2.2 + (rows.map PendingRow.lag).sum) := by
  induction rows generalizing t with
  | nil => simp
  | cons r rows ih =>
    rw [List.foldl_cons, ih]
    simp [Int64.add_assoc]

theorem Int64.sum_nonneg (l : List Int64) (h0 : ∀ x ∈ l, 0 ≤ x.toInt) : 0 ≤ (l.map Int64.toInt).sum := by
  induction l with
  | nil => simp
  | cons x l ih =>
    have hx := h0 x (by simp)
    have := ih fun y hy => h0 y (List.mem_cons_of_mem _ hy)
    simp only [List.map_cons, List.sum_cons]
    omega

theorem Int64.sum_toInt (l : List Int64) (h0 : ∀ x ∈ l, 0 ≤ x.toInt) (h : (l.map Int64.toInt).sum < 2 ^ 63) : l.sum.toInt = (l.map Int64.toInt).sum := by
  induction l with
  | nil => rfl
  | cons x l ih =>
    simp only [List.map_cons, List.sum_cons] at h ⊢
    have hx := h0 x (by simp)
    have hl : 0 ≤ (l.map Int64.toInt).sum := Int64.sum_nonneg l fun y hy => h0 y (List.mem_cons_of_mem _ hy)
    rw [Int64.toInt_add, ih (fun y hy => h0 y (List.mem_cons_of_mem _ hy)) (by omega), Int.bmod_eq_of_le] <;> omega

/-- C127: the totals are the sums, as long as they fit.
Missing: partitions without a committed position (`C127_violated_uncommitted`). -/
theorem C127_totals_partial (rows : List PendingRow) (h0 : ∀ r ∈ rows, 0 ≤ r.committed.toInt ∧ r.committed.toInt ≤ r.offset.toInt ∧
      r.lag.toInt = r.offset.toInt - r.committed.toInt)
    (hs : (rows.map fun r => r.offset.toInt).sum < 2 ^ 63) :
    (totals rows).1.toInt = (rows.map fun r => r.offset.toInt).sum ∧
    (totals rows).2.1.toInt = (rows.map fun r => r.committed.toInt).sum ∧
    (totals rows).2.2.toInt = (rows.map fun r => r.offset.toInt).sum - (rows.map fun r => r.committed.toInt).sum := by
  have hle : (rows.map fun r => r.committed.toInt).sum ≤ (rows.map fun r => r.offset.toInt).sum ∧ 0 ≤ (rows.map fun r => r.committed.toInt).sum ∧
      (rows.map fun r => r.lag.toInt).sum = (rows.map fun r => r.offset.toInt).sum - (rows.map fun r => r.committed.toInt).sum := by
    clear hs
    induction rows with
    | nil => simp
    | cons r rows ih =>
      have := h0 r (by simp)
      have := ih fun x hx => h0 x (List.mem_cons_of_mem _ hx)
      simp only [List.map_cons, List.sum_cons]
      omega
  unfold totals
  rw [totals_sum]
  simp only [Int64.zero_add]
  have key : ∀ f : PendingRow → Int64, (∀ r ∈ rows, 0 ≤ (f r).toInt) → (rows.map fun r => (f r).toInt).sum < 2 ^ 63 →
      (rows.map f).sum.toInt = (rows.map fun r => (f r).toInt).sum := by
    intro f hf hb
    have := Int64.sum_toInt (rows.map f) (by
      intro x hx
      obtain ⟨r, hr, rfl⟩ := List.mem_map.1 hx
      exact hf r hr) (by rw [List.map_map]; exact hb)
    rw [List.map_map] at this
    exact this
  refine ⟨key _ (fun r hr => ?_) hs, key _ (fun r hr => (h0 r hr).1) (by omega), ?_⟩
  · have := h0 r hr
    omega
  · rw [← hle.2.2]
    refine key _ (fun r hr => ?_) (by omega)
    have := h0 r hr
    omega

/-- a cluster where partition `p` of "t" ends at 10 (p + 1) -/
def tallyNet : Net Nat :=
  { goodNet with offsets := fun _ _ ps w => ((⟨0, 0, [([116], ps.map fun p => ⟨p, 0, [], 0, 10 * (p.toInt64 + 1)⟩)]⟩, none), w + 1) }

/-- a coordinator answering with the positions `com` -/
def tallyFetch (com : Int32 → Int64) : Nat → OffsetFetchRequest → Nat → Except Err OffsetFetchResponse × Nat := fun _ r w =>
  (.ok ⟨0, r.topics.map fun t => (t.topic, t.partitions.map fun p => ⟨p, com p, [], 0⟩)⟩, w + 1)

theorem tallyNet_orderly : Orderly tallyNet [116] [0, 1, 2] fun p => 10 * (p.toInt64 + 1) := by
  refine ⟨by decide, ?_, ?_⟩
  · intro h w r hr
    simp only [tallyNet, goodNet, demoNet, Prod.mk.injEq, and_true] at hr
    subst hr
    exact ⟨_, rfl, by decide⟩
  · intro h pids w r hr
    simp only [tallyNet, Prod.mk.injEq, and_true] at hr
    subst hr
    simp [PartitionOffset.getOffset, Function.comp_def]

theorem tallyFetch_remembers (group : Bytes) (com : Int32 → Int64) : Remembers (tallyFetch com) group [116] com := by
  intro h req w r _ hr p hp
  simp only [tallyFetch, Except.ok.injEq] at hr
  subst hr
  simp only [List.flatMap_map]
  constructor
  · obtain ⟨t, ht, _, hpt⟩ := hp
    exact ⟨⟨p, com p, [], 0⟩, List.mem_flatMap.2 ⟨t, ht, List.mem_map.2 ⟨p, hpt, rfl⟩⟩, rfl⟩
  · intro e he hep
    obtain ⟨t, _, he⟩ := List.mem_flatMap.1 he
    obtain ⟨q, _, rfl⟩ := List.mem_map.1 he
    simp only at hep ⊢
    rw [hep]

/-- the outcome of a call -/
def okPart {α : Type} (x : Out α × Brokers W) : Option α :=
  match x.1 with
  | .ok a => some a
  | _ => none

example : okPart (getPending tallyNet (tallyFetch fun p => 7 * (p.toInt64 + 1)) [103] [116] (demoBrokers tallyNet)) =
    some [⟨0, 10, 7, 3⟩, ⟨1, 20, 14, 6⟩, ⟨2, 30, 21, 9⟩] := by decide +kernel

example : totals [⟨0, 10, 7, 3⟩, ⟨1, 20, 14, 6⟩, ⟨2, 30, 21, 9⟩] = (60, 42, 18) := by decide

/-- leaders which do not know the end of partition 1 -/
def vagueNet : Net Nat :=
  { goodNet with offsets := fun _ _ ps w => ((⟨0, 0, [([116], ps.map fun p => ⟨p, 0, [], 0, if p = 1 then -1 else 10⟩)]⟩, none), w + 1) }

example : okPart (getPending vagueNet (tallyFetch fun _ => 7) [103] [116] (demoBrokers vagueNet)) =
    some [⟨0, 10, 7, 3⟩, ⟨1, -1, 7, 0⟩, ⟨2, 10, 7, 3⟩] := by decide +kernel

/-- C127 does not hold for a group which has committed nothing (-1) for a partition: one message more than there ever were counts as pending. -/
theorem C127_violated_uncommitted : Orderly tallyNet [116] [0, 1, 2] (fun p => 10 * (p.toInt64 + 1)) ∧
    Remembers (tallyFetch fun _ => -1) [103] [116] (fun _ => -1) ∧
    okPart (getPending tallyNet (tallyFetch fun _ => -1) [103] [116] (demoBrokers tallyNet)) =
      some [⟨0, 10, -1, 11⟩, ⟨1, 20, -1, 21⟩, ⟨2, 30, -1, 31⟩] :=
  ⟨tallyNet_orderly, tallyFetch_remembers _ _, by decide +kernel⟩

/-! ## C128: reset-offset -/

theorem coordinatorBroker_ok (net : Net W) (group : Bytes) (b b' : Brokers W) (h : Nat) (hc : coordinatorBroker net group b = (.ok h, b')) :
    ∃ n, b'.coordinatorNamed n ∧ b'.object n = some h := by
  unfold coordinatorBroker at hc
  rcases hf : findCoordinator net group b with ⟨_ | r, b1⟩
  · rw [hf] at hc
    simp at hc
  · rw [hf] at hc
    simp only at hc
    have hn := findCoordinator_named net group b r (by rw [hf])
    rw [hf] at hn
    rcases hg : getBroker net r.nodeID b1 with ⟨_ | k, b2⟩
    · rw [hg] at hc
      simp at hc
    · rw [hg] at hc
      simp only [Prod.mk.injEq, Out.ok.injEq] at hc
      obtain ⟨rfl, rfl⟩ := hc
      have hs := getBroker_spec net r.nodeID b1
      rw [hg] at hs
      refine ⟨r.nodeID, hn.grows hs.1, ?_⟩
      rw [Brokers.object, hs.2 k rfl]
      rfl

theorem resetRequest_head (group topic : Bytes) (chosen : List Int32) (offsets : List (Int32 × Int64)) :
    (resetRequest group topic chosen offsets).groupID = group ∧ (resetRequest group topic chosen offsets).generationID = -1 ∧
    (resetRequest group topic chosen offsets).memberID = [] ∧ (resetRequest group topic chosen offsets).retentionTime = -1 := by
  unfold resetRequest
  generalize hr : ({ groupID := group, generationID := -1, memberID := [], retentionTime := -1 } : OffsetCommitRequest) = r
  have : r.groupID = group ∧ r.generationID = -1 ∧ r.memberID = [] ∧ r.retentionTime = -1 := by
    rw [← hr]
    simp
  clear hr
  generalize offsets.filter (fun e => decide (chosen = []) || decide (e.1 ∈ chosen)) = l
  induction l generalizing r with
  | nil => exact this
  | cons p ps ih => exact ih _ this

/-- the last entry for a partition is the only one -/
theorem lastAdded_of_nodup (topic : Bytes) (l : List (Int32 × Int64)) (h : (l.map Prod.fst).Nodup) (t : Bytes) (p : Int32) (o : Int64) (md : Bytes) :
    lastAdded (l.map fun e => (⟨topic, e.1, e.2, []⟩ : CommitAdd)) t p = some (o, md) ↔ t = topic ∧ (p, o) ∈ l ∧ md = [] := by
  induction l using List.reverseRecOn with
  | nil => simp [lastAdded]
  | append_singleton l e ih =>
    have hn : (l.map Prod.fst).Nodup ∧ e.1 ∉ l.map Prod.fst := by
      rw [List.map_append, List.nodup_append] at h
      exact ⟨h.1, fun hm => h.2.2 _ hm e.1 (by simp) rfl⟩
    rw [List.map_append, List.map_singleton, lastAdded_append]
    by_cases hc : topic = t ∧ e.1 = p
    · rw [if_pos hc]
      obtain ⟨rfl, rfl⟩ := hc
      simp only [Option.some.injEq, Prod.mk.injEq, List.mem_append, List.mem_singleton, true_and]
      constructor
      · rintro ⟨rfl, rfl⟩
        exact ⟨.inr rfl, rfl⟩
      · rintro ⟨hm | he, rfl⟩
        · exact absurd (List.mem_map.2 ⟨_, hm, rfl⟩) hn.2
        · exact ⟨(congrArg Prod.snd he).symm, rfl⟩
    · rw [if_neg hc, ih hn.1]
      simp only [List.mem_append, List.mem_singleton]
      constructor
      · rintro ⟨a, b, c⟩
        exact ⟨a, .inl b, c⟩
      · rintro ⟨rfl, hb | hb, rfl⟩
        · exact ⟨rfl, hb, rfl⟩
        · exact absurd ⟨rfl, (congrArg Prod.fst hb).symm⟩ hc

theorem resetRequest_exact (group topic : Bytes) (chosen : List Int32) (offsets : List (Int32 × Int64)) (h : (offsets.map Prod.fst).Nodup) :
    ((resetRequest group topic chosen offsets).topics.map OffsetCommitTopic.topic).Nodup ∧
    (∀ t ∈ (resetRequest group topic chosen offsets).topics, (t.partitions.map OffsetCommitPartition.partitionID).Nodup) ∧
    ∀ t p o md, (∃ x ∈ (resetRequest group topic chosen offsets).topics, x.topic = t ∧ ⟨p, o, md⟩ ∈ x.partitions) ↔
      t = topic ∧ (p, o) ∈ offsets ∧ (chosen = [] ∨ p ∈ chosen) ∧ md = [] := by
  have key := C75_offset_commit_partial { groupID := group, generationID := -1, memberID := [], retentionTime := -1 } rfl
    ((offsets.filter fun e => decide (chosen = []) || decide (e.1 ∈ chosen)).map fun e => (⟨topic, e.1, e.2, []⟩ : CommitAdd))
  rw [List.foldl_map] at key
  refine ⟨key.topicsOnce, key.pidsOnce, ?_⟩
  intro t p o md
  have := key.exact t p o md
  rw [lastAdded_of_nodup] at this
  · refine this.trans ?_
    simp only [List.mem_filter, Bool.or_eq_true, decide_eq_true_eq]
    constructor
    · rintro ⟨a, ⟨b, c⟩, d⟩
      exact ⟨a, b, c, d⟩
    · rintro ⟨a, b, c, d⟩
      exact ⟨a, ⟨b, c⟩, d⟩
  · exact h.sublist (List.filter_sublist.map _)

theorem resetOffsets_ok {net : Net W} {topic : Bytes} {ps : List Int32} {off : Int32 → Int64} (ho : Orderly net topic ps off) (b b' : Brokers W)
    (m : AMap Int32 Int64) (h : resetOffsets net topic b = (.ok m, b')) :
    m.keys.Nodup ∧ ∀ p, m.get p = if p ∈ ps then some (off p) else none := by
  obtain ⟨rs, b1, h1, h2⟩ := andThen_ok h
  obtain ⟨m', hm', hn, hg⟩ := offsetMap_get rs (requestOffsets_entries ho _ _ _ h1)
  split at h2
  · simp at h2
  · simp only [Prod.mk.injEq] at h2
    rw [hm'] at h2
    cases h2.1
    exact ⟨hn, hg⟩

/-- C128: for a topic with partitions `ps` whose leaders answer with the offsets `off` for the timestamp given, reset-offset, unless it fails, has sent one commit, to the broker named as
coordinator of the group: from outside any generation, kept for as long as the broker keeps positions, with one entry for each partition chosen (all if none is), holding the offset its leader
answered with.
Missing for the full statement: timestamps after the last message, partitions the topic does not have, and the storage asked for (`C128_violated_*`). -/
theorem C128_partial (net : Net W) (commit : Commit → W → Option Err × W) (flags : AMap Bytes Bytes) (group topic : Bytes) (chosen ps : List Int32) (off : Int32 → Int64)
    (ho : Orderly net topic ps off) (b b' : Brokers W) (sent : List Commit) (h : resetOffset net commit flags group topic chosen b = (.ok sent, b')) :
    ∃ n k version req, sent = [(k, version, req)] ∧ b'.coordinatorNamed n ∧ b'.object n = some k ∧ (∃ w, (commit (k, version, req) w).1 = none) ∧
      req.groupID = group ∧ req.generationID = -1 ∧ req.memberID = [] ∧ req.retentionTime = -1 ∧
      (req.topics.map OffsetCommitTopic.topic).Nodup ∧ (∀ t ∈ req.topics, (t.partitions.map OffsetCommitPartition.partitionID).Nodup) ∧
      ∀ t p o md, (∃ x ∈ req.topics, x.topic = t ∧ ⟨p, o, md⟩ ∈ x.partitions) ↔ t = topic ∧ p ∈ ps ∧ (chosen = [] ∨ p ∈ chosen) ∧ o = off p ∧ md = [] := by
  unfold resetOffset at h
  rcases hm : requestMetaData net [topic] b with ⟨⟨r, _ | e⟩, b1⟩
  · rw [hm] at h
    simp only at h
    split at h
    · simp at h
    · obtain ⟨offsets, b2, h2, h⟩ := andThen_ok h
      obtain ⟨k, b3, h3, h⟩ := andThen_ok h
      obtain ⟨n, hn, hk⟩ := coordinatorBroker_ok net group b2 b3 k h3
      obtain ⟨hnd, hget⟩ := resetOffsets_ok ho _ _ _ h2
      unfold resetCommit at h
      rcases hor : order net offsets b3 with ⟨l, b4⟩
      rw [hor] at h
      simp only at h
      have hl : l = (net.shuffle offsets b3.world).1 ∧ b4 = { b3 with world := (net.shuffle offsets b3.world).2 } := by
        simp only [order, Prod.mk.injEq] at hor
        exact ⟨hor.1.symm, hor.2.symm⟩
      have hperm : l.Perm offsets := hl.1 ▸ net.shuffle_perm _ _
      rcases hcm : commit (k, resetVersion flags, resetRequest group topic chosen l) b4.world with ⟨_ | e, w⟩
      · rw [hcm] at h
        simp only [Prod.mk.injEq, Out.ok.injEq] at h
        obtain ⟨h1, h2, h3, h4⟩ := resetRequest_head group topic chosen l
        have hln : (l.map Prod.fst).Nodup := (hperm.map _).nodup_iff.2 hnd
        obtain ⟨x1, x2, x3⟩ := resetRequest_exact group topic chosen l hln
        refine ⟨n, k, _, _, h.1.symm, ?_, ?_, ⟨b4.world, by rw [hcm]⟩, h1, h2, h3, h4, x1, x2, ?_⟩
        · rw [← h.2, hl.2]
          exact hn
        · rw [← h.2, hl.2]
          exact hk
        · intro t p o md
          rw [x3]
          have : (p, o) ∈ l ↔ p ∈ ps ∧ o = off p := by
            rw [hperm.mem_iff]
            have hg := hget p
            constructor
            · intro hp
              rw [AMap.get_eq_some_of_mem _ hnd _ _ hp] at hg
              by_cases hps : p ∈ ps
              · rw [if_pos hps] at hg
                exact ⟨hps, Option.some.inj hg⟩
              · rw [if_neg hps] at hg
                simp at hg
            · rintro ⟨hps, rfl⟩
              rw [if_pos hps] at hg
              exact AMap.mem_of_get_eq_some _ _ _ hg
          rw [this]
          constructor
          · rintro ⟨a, ⟨b, c⟩, d, e⟩
            exact ⟨a, b, d, c, e⟩
          · rintro ⟨a, b, d, c, e⟩
            exact ⟨a, ⟨b, c⟩, d, e⟩
      · rw [hcm] at h
        simp at h
  · rw [hm] at h
    simp at h

/-- a coordinator accepting every commit -/
def acceptAll : Commit → Nat → Option Err × Nat := fun _ w => (none, w + 1)

/-- the commits sent, in short -/
def briefCommits (x : Out (List Commit) × Brokers Nat) : Option (List (Nat × UInt16 × List OffsetCommitTopic)) :=
  (okPart x).map fun l => l.map fun c => (c.1, c.2.1, c.2.2.topics)

example : briefCommits (resetOffset tallyNet acceptAll [] [103] [116] [] (demoBrokers tallyNet)) =
    some [(0, 2, [⟨[116], [⟨2, 30, []⟩, ⟨0, 10, []⟩, ⟨1, 20, []⟩]⟩])] := by decide +kernel

example : briefCommits (resetOffset tallyNet acceptAll [] [103] [116] [2] (demoBrokers tallyNet)) =
    some [(0, 2, [⟨[116], [⟨2, 30, []⟩]⟩])] := by decide +kernel

/-- a cluster where no message is as late as the timestamp asked for: Kafka answers with -1 -/
def lateNet : Net Nat :=
  { goodNet with offsets := fun _ _ ps w => ((⟨0, 0, [([116], ps.map fun p => ⟨p, 0, [], -1, -1⟩)]⟩, none), w + 1) }

/-- C128 does not hold for a timestamp after the last message: the tool commits the position -1, where no message can be. -/
theorem C128_violated_late : briefCommits (resetOffset lateNet acceptAll [] [103] [116] [0] (demoBrokers lateNet)) =
    some [(0, 2, [⟨[116], [⟨0, -1, []⟩]⟩])] := by decide +kernel

/-- C128 does not hold for partitions the topic does not have: the tool commits nothing and reports success. -/
theorem C128_violated_unknown : briefCommits (resetOffset tallyNet acceptAll [] [103] [116] [7] (demoBrokers tallyNet)) =
    some [(0, 2, [])] := by decide +kernel

/-- C128 does not hold for `--offsets.storage zookeeper`: positions are committed to Kafka (version 2) all the same. -/
theorem C128_violated_storage (flags : AMap Bytes Bytes)
    -- "offsets.storage" is "zookeeper"; "offset.storage" is not declared
    (_ : flags.get [111, 102, 102, 115, 101, 116, 115, 46, 115, 116, 111, 114, 97, 103, 101] = some [122, 111, 111, 107, 101, 101, 112, 101, 114])
    (h : flags.get [111, 102, 102, 115, 101, 116, 46, 115, 116, 111, 114, 97, 103, 101] = none) : resetVersion flags = 2 := by
  unfold resetVersion
  rw [h]
  simp

example : resetVersion [([111, 102, 102, 115, 101, 116, 115, 46, 115, 116, 111, 114, 97, 103, 101], [122, 111, 111, 107, 101, 101, 112, 101, 114])] = 2 := by decide

/-! ## C132: the lag over HTTP -/

/-- C132: for a topic with partitions `ps`, end offsets `off` and committed positions `com`, an answer with status 200 to the question for the lag of a group lists each partition once, with the
committed position; and if the end offsets could be had, with these and with the number of messages between.
Missing for the full statement: end offsets which could not be had (`C132_violated_offsets`), partitions without committed position (as in C127). -/
theorem C132_partial (net : Net W) (fetch : Nat → OffsetFetchRequest → W → Except Err OffsetFetchResponse × W) (group topic : Bytes) (ps : List Int32)
    (off com : Int32 → Int64) (ho : Orderly net topic ps off) (hc : Remembers fetch group topic com)
    (hr : ∀ p ∈ ps, 0 ≤ (com p).toInt ∧ (com p).toInt ≤ (off p).toInt) (b b' : Brokers W) (rows : List PendingRow)
    (h : httpPending net fetch group topic b = (.ok (200, rows), b')) :
    (rows.map PendingRow.partition).Perm ps ∧ (∀ row ∈ rows, row.committed = com row.partition) ∧
    ((∃ m b1, getOffset net topic b = (.ok m, b1)) → ∀ row ∈ rows, row.offset = off row.partition ∧
      row.lag.toInt = (off row.partition).toInt - (com row.partition).toInt) := by
  have rest : ∀ (offsets : AMap Int32 Int64) (b1 : Brokers W),
      httpRows net fetch group topic offsets b1 = (.ok (200, rows), b') →
      ∃ l : List Int32, l.Perm ps ∧ rows = l.map fun p => (⟨p, (offsets.get p).getD 0, com p, (offsets.get p).getD 0 - com p⟩ : PendingRow) := by
    intro offsets b1 h
    unfold httpRows at h
    rcases hm : requestMetaData net [topic] b1 with ⟨⟨r, _ | e⟩, b2⟩
    · rw [hm] at h
      obtain ⟨k, w, hk⟩ := requestMetaData_answer net _ _ _ _ hm
      obtain ⟨t, ht, hp⟩ := ho.metadata _ _ _ hk
      simp only [ht, List.flatMap_cons, List.flatMap_nil, List.append_nil] at h
      refine ⟨_, hp, ?_⟩
      rcases hg : getCommitted net fetch group topic (t.partitions.map PartitionMetadataInfo.partitionID) b2 with ⟨m | e | _, b3⟩
      · rw [hg] at h
        simp only [Prod.mk.injEq, Out.ok.injEq, true_and] at h
        rw [← h.1]
        apply List.map_congr_left
        intro p hp'
        have := getCommitted_ok hc _ _ _ _ hg p hp'
        rw [this]
        rfl
      · rw [hg] at h
        simp at h
      · rw [hg] at h
        simp at h
    · rw [hm] at h
      simp at h
  have hrows : ∃ (offsets : AMap Int32 Int64) (l : List Int32), l.Perm ps ∧
      (∀ m b1, getOffset net topic b = (.ok m, b1) → offsets = m) ∧
      rows = l.map fun p => (⟨p, (offsets.get p).getD 0, com p, (offsets.get p).getD 0 - com p⟩ : PendingRow) := by
    unfold httpPending at h
    rcases hg : getOffset net topic b with ⟨m | e | _, b1⟩
    · rw [hg] at h
      obtain ⟨l, hl, hrows⟩ := rest m b1 h
      exact ⟨m, l, hl, by rintro _ _ ⟨⟩; rfl, hrows⟩
    · rw [hg] at h
      obtain ⟨l, hl, hrows⟩ := rest [] b1 h
      exact ⟨[], l, hl, by rintro _ _ ⟨⟩, hrows⟩
    · rw [hg] at h
      simp at h
  obtain ⟨offsets, l, hl, hoff, rfl⟩ := hrows
  refine ⟨?_, ?_, ?_⟩
  · rw [List.map_map]
    have : (PendingRow.partition ∘ fun p => (⟨p, (offsets.get p).getD 0, com p, (offsets.get p).getD 0 - com p⟩ : PendingRow)) = id := rfl
    rw [this, List.map_id]
    exact hl
  · intro row hrow
    obtain ⟨p, _, rfl⟩ := List.mem_map.1 hrow
    rfl
  · rintro ⟨m, b1, hm⟩ row hrow
    obtain ⟨p, hp, rfl⟩ := List.mem_map.1 hrow
    have hps := hl.mem_iff.1 hp
    rw [hoff m b1 hm]
    have hget := (getOffset_ok ho _ _ _ hm).2 p
    rw [if_pos hps] at hget
    have hrp := hr p hps
    simp only [hget, Option.getD_some, true_and]
    have hlt := (off p).toInt_lt
    rw [Int64.toInt_sub, Int.bmod_eq_of_le] <;> omega

example : okPart (httpPending tallyNet (tallyFetch fun p => 7 * (p.toInt64 + 1)) [103] [116] (demoBrokers tallyNet)) =
    some (200, [⟨0, 10, 7, 3⟩, ⟨1, 20, 14, 6⟩, ⟨2, 30, 21, 9⟩]) := by decide +kernel

/-- a cluster whose leaders do not answer when asked for offsets -/
def muteNet : Net Nat := { goodNet with offsets := fun _ _ _ w => ((⟨0, 0, []⟩, some .timeout), w + 1) }

/-- C132 does not hold when the end offsets cannot be had: the answer still has status 200, with offsets 0 and negative lags. -/
theorem C132_violated_offsets : okPart (httpPending muteNet (tallyFetch fun _ => 7) [103] [116] (demoBrokers muteNet)) =
    some (200, [⟨0, 0, 7, -7⟩, ⟨1, 0, 7, -7⟩, ⟨2, 0, 7, -7⟩]) := by decide +kernel

end Healer
