import Verif.Model.Listing
import Verif.Props.Tools
import Verif.Props.Tools2
import Verif.Props.Ask

/-!
# C163, C165, C166: get-offsets, get-metadata, and what asking does to the cluster
-/

namespace Healer

/-! ## C163 -/

/-- The topic has the partitions `ps`; the leader of each answers with `ans p`.  Requests may fail at any time. -/
structure OffsetsAre {W : Type} (net : Net W) (topic : Bytes) (ps : List Int32) (ans : Int32 → PartitionOffset) : Prop where
  once : ps.Nodup
  named : ∀ p, (ans p).partition = p
  metadata : ∀ h w r, (net.metadata h [topic] w).1 = (r, none) → ∃ t, r.topics = [t] ∧ (t.partitions.map PartitionMetadataInfo.partitionID).Perm ps
  offsets : ∀ h pids w r, (net.offsets h topic pids w).1 = (r, none) → (r.topicPartitionOffsets.flatMap Prod.snd).Perm (pids.map ans)

/-- What a leader says about the offset for a timestamp: brokers of version 0 list offsets, later ones give one. -/
def SaysOffset (e : PartitionOffset) (o : Int64) : Prop := e.oldStyleOffsets = [o] ∨ (e.oldStyleOffsets = [] ∧ e.offset = o)

/-- `qs` are the partitions `ps` in ascending order -/
def InTurn (ps qs : List Int32) : Prop := qs.Perm ps ∧ qs.Pairwise (· < ·)

namespace Brokers

variable {W : Type} {net : Net W}

theorem offsetsLoop_answers {topic : Bytes} {ps : List Int32} {ans : Int32 → PartitionOffset} (ho : OffsetsAre net topic ps ans)
    (ls : List (Int32 × List Int32)) (acc : List OffsetsResponse) (b b' : Brokers W) (rs : List OffsetsResponse)
    (h : offsetsLoop net topic ls acc b = (.ok rs, b')) :
    ∃ new, rs = acc ++ new ∧ (entries new).Perm ((ls.flatMap Prod.snd).map ans) := by
  induction ls generalizing acc b with
  | nil =>
    simp only [offsetsLoop, Prod.mk.injEq, Except.ok.injEq] at h
    exact ⟨[], by simp [h.1], by simp [entries]⟩
  | cons l ls ih =>
    obtain ⟨l, pids⟩ := l
    unfold offsetsLoop at h
    rcases hb : getBroker net l b with ⟨_ | k, b1⟩
    · rw [hb] at h
      simp at h
    · rw [hb] at h
      simp only at h
      rcases ha : askOffsets net k.1 topic pids b1 with ⟨⟨r, _ | e⟩, b2⟩
      · rw [ha] at h
        simp only at h
        obtain ⟨new, hn, hp⟩ := ih _ _ h
        unfold askOffsets at ha
        simp only [Prod.mk.injEq] at ha
        have hr := ho.offsets _ _ _ _ ha.1
        refine ⟨r :: new, by simp [hn], ?_⟩
        simp only [entries, List.flatMap_cons, List.map_append] at hp ⊢
        exact hr.append hp
      · rw [ha] at h
        simp at h

theorem requestOffsets_answers {topic : Bytes} {ps : List Int32} {ans : Int32 → PartitionOffset} (ho : OffsetsAre net topic ps ans) (b b' : Brokers W)
    (rs : List OffsetsResponse) (h : requestOffsets net topic (-1) b = (.ok rs, b')) : (entries rs).Perm (ps.map ans) := by
  unfold requestOffsets at h
  rcases hm : requestMetaData net [topic] b with ⟨⟨r, _ | e⟩, b1⟩
  · rw [hm] at h
    obtain ⟨k, w, hk⟩ := requestMetaData_answer net _ _ _ _ hm
    obtain ⟨t, ht, hp⟩ := ho.metadata _ _ _ hk
    have hlt : ¬ ((-1 : Int32) ≥ 0) := by decide
    simp only [ht, if_neg hlt] at h
    rcases hl : offsetsLoop net topic (order net (byLeader t.partitions) b1).1 [] (order net (byLeader t.partitions) b1).2 with ⟨x, b2⟩
    rw [hl] at h
    cases x with
    | error e => simp [Out.ofExcept] at h
    | ok rs' =>
      simp only [Out.ofExcept, Prod.mk.injEq, Out.ok.injEq] at h
      obtain ⟨rfl, rfl⟩ := h
      obtain ⟨new, hn, hnp⟩ := offsetsLoop_answers ho _ _ _ _ _ hl
      simp only [List.nil_append] at hn
      subst hn
      have hg := (byLeader_groups t.partitions).perm_left (ls' := (order net (byLeader t.partitions) b1).1) (net.shuffle_perm _ _)
      exact hnp.trans ((hg.perm.trans hp).map _)
  · rw [hm] at h
    simp at h

/-- a sorted list of answers is the list of the answers of the partitions in order -/
theorem listOffsets_ok {topic : Bytes} {ps : List Int32} {ans : Int32 → PartitionOffset} (ho : OffsetsAre net topic ps ans) (b b' : Brokers W)
    (l : List PartitionOffset) (h : listOffsets net topic b = (.ok l, b')) : ∃ qs, InTurn ps qs ∧ l = qs.map ans := by
  obtain ⟨rs, b1, h1, h2⟩ := andThen_ok h
  have hp := requestOffsets_answers ho _ _ _ h1
  simp only [Prod.mk.injEq, Out.ok.injEq] at h2
  have hl := (goSort_perm (fun x y : PartitionOffset => decide (x.partition ≤ y.partition)) (entries rs)).trans hp
  have hs := goSort_pairwise (le := fun x y : PartitionOffset => decide (x.partition ≤ y.partition))
    (fun a b c h1 h2 => by
      simp only [decide_eq_true_eq] at h1 h2 ⊢
      exact Int32.le_trans h1 h2)
    (fun a b => by
      simp only [Bool.or_eq_true, decide_eq_true_eq]
      exact Int32.le_total _ _) (entries rs)
  rw [show goSort (fun x y : PartitionOffset => decide (x.partition ≤ y.partition)) (entries rs) = l from h2.1] at hl hs
  have hmap : l = (l.map PartitionOffset.partition).map ans := by
    rw [List.map_map]
    conv_lhs => rw [← List.map_id l]
    refine List.map_congr_left fun e he => ?_
    obtain ⟨p, _, rfl⟩ := List.mem_map.1 (hl.mem_iff.1 he)
    simp [ho.named]
  have hperm : (l.map PartitionOffset.partition).Perm ps := by
    have := hl.map PartitionOffset.partition
    rw [List.map_map] at this
    have hid : (PartitionOffset.partition ∘ ans) = id := funext fun p => ho.named p
    rwa [hid, List.map_id] at this
  refine ⟨l.map PartitionOffset.partition, ⟨hperm, ?_⟩, hmap⟩
  have hle : (l.map PartitionOffset.partition).Pairwise (· ≤ ·) := by
    rw [List.pairwise_map]
    exact hs.imp fun h => by simpa using h
  have hne : (l.map PartitionOffset.partition).Pairwise (· ≠ ·) := hperm.nodup_iff.2 ho.once
  exact hle.imp₂ (fun x y h1 h2 => Int32.lt_of_le_of_ne h1 h2) hne

theorem listOffsets_calm {topic : Bytes} {ps : List Int32} {ans : Int32 → PartitionOffset} (ho : OffsetsAre net topic ps ans) (b : Brokers W) :
    (listOffsets net topic b).1 ≠ .panic := by
  have hr : (requestOffsets net topic (-1) b).1 ≠ .panic := by
    unfold requestOffsets
    rcases hm : requestMetaData net [topic] b with ⟨⟨r, _ | e⟩, b1⟩
    · obtain ⟨k, w, hk⟩ := requestMetaData_answer net _ _ _ _ hm
      obtain ⟨t, ht, hp⟩ := ho.metadata _ _ _ hk
      have hlt : ¬ ((-1 : Int32) ≥ 0) := by decide
      simp only [ht, if_neg hlt]
      rcases (offsetsLoop net topic (order net (byLeader t.partitions) b1).1 [] (order net (byLeader t.partitions) b1).2).1 with _ | _ <;> simp [Out.ofExcept]
    · simp
  unfold listOffsets andThen
  rcases hx : requestOffsets net topic (-1) b with ⟨_ | _ | _, b1⟩
  · simp
  · simp
  · rw [hx] at hr
    exact absurd rfl hr

theorem printOffsets_ok (off : Int32 → Int64) (ans : Int32 → PartitionOffset) (hn : ∀ p, (ans p).partition = p) (qs : List Int32)
    (h : ∀ p ∈ qs, SaysOffset (ans p) (off p)) :
    printOffsets (qs.map ans) = (qs.map fun p => ⟨p, (ans p).timestamp, off p⟩, some ()) := by
  induction qs with
  | nil => rfl
  | cons q qs ih =>
    have hq : (ans q).getOffset = .ok (off q) := by
      rcases h q (by simp) with ho | ⟨ho, ho'⟩
      · simp [PartitionOffset.getOffset, ho]
      · simp [PartitionOffset.getOffset, ho, ho']
    rw [List.map_cons, printOffsets, hq, ih fun p hp => h p (by simp [hp])]
    simp [hn]

theorem readsBack_itoa (n : Int64) : atoi (itoa n.toInt) = some n := by
  unfold atoi
  rw [signedOf_itoa]
  have h1 := n.le_toInt
  have h2 := n.toInt_lt
  simp only [Option.bind_some]
  rw [if_pos ⟨h1, h2⟩, Int64.ofInt_toInt]

end Brokers

variable {W : Type}

open Brokers

/-- C163, the tool: unless it fails, get-offsets prints one line for each partition of the topic, in ascending order, with the timestamp and the offset its leader answered with for the
timestamp given, or for the end (-1) if none was given.
Missing for the full statement: leaders of version 0 which list no offset (`C163_violated_every_none`). -/
theorem C163_tool_partial (net : Int64 → Net W) (topic : Bytes) (ps : List Int32) (ts : Option Int64) (ans : Int32 → PartitionOffset) (off : Int32 → Int64)
    (ho : OffsetsAre (net (ts.getD (-1))) topic ps ans) (hs : ∀ p ∈ ps, SaysOffset (ans p) (off p)) (b : Brokers W)
    (hf : (getOffsetsTool net topic ts b).1.failed = none) :
    ∃ qs, InTurn ps qs ∧
      (getOffsetsTool net topic ts b).1 = { lines := qs.map fun p => ⟨p, (ans p).timestamp, off p⟩, failed := none, crashed := false } := by
  unfold getOffsetsTool getOffsetsCmd at hf ⊢
  rcases hl : listOffsets (net (ts.getD (-1))) topic b with ⟨l | e | _, b'⟩
  · obtain ⟨qs, hq, rfl⟩ := listOffsets_ok ho _ _ _ hl
    refine ⟨qs, hq, ?_⟩
    simp only
    rw [printOffsets_ok off ans ho.named qs fun p hp => hs p (hq.1.mem_iff.1 hp)]
    rfl
  · rw [hl] at hf
    simp at hf
  · exact absurd (by rw [hl]) (listOffsets_calm ho b)

/-- C163, over HTTP: for any timestamp, in digits, the answer is the list of what the leaders answered, one element for each partition, in ascending order; or it has status 500.
Missing for the full statement: requests without timestamp (`C163_violated_every_missing`). -/
theorem C163_http_partial (net : Int64 → Net W) (topic : Bytes) (ps : List Int32) (ts : Int64) (ans : Int32 → PartitionOffset) (ho : OffsetsAre (net ts) topic ps ans) (b : Brokers W) :
    (getTopicOffsets net topic (some (itoa ts.toInt)) b).1 = .status 500 ∨
      ∃ qs, InTurn ps qs ∧ (getTopicOffsets net topic (some (itoa ts.toInt)) b).1 = .offsets (qs.map ans) := by
  have ha : atoi ((some (itoa ts.toInt)).getD []) = some ts := readsBack_itoa ts
  unfold getTopicOffsets
  rw [ha]
  rcases hl : listOffsets (net ts) topic b with ⟨l | e | _, b'⟩
  · obtain ⟨qs, hq, rfl⟩ := listOffsets_ok ho _ _ _ hl
    exact .inr ⟨qs, hq, by simp only [hl]⟩
  · exact .inl (by simp only [hl])
  · exact .inl (by simp only [hl])

/-- a leader which does not answer makes the listing fail -/
theorem offsetsLoop_unanswered {net : Net W} {topic : Bytes} (hu : ∀ h pids w, (net.offsets h topic pids w).1.2 ≠ none) (ls : List (Int32 × List Int32)) (hne : ls ≠ [])
    (acc : List OffsetsResponse) (b : Brokers W) : ∃ e, (offsetsLoop net topic ls acc b).1 = .error e := by
  cases ls with
  | nil => exact absurd rfl hne
  | cons l ls =>
    obtain ⟨l, pids⟩ := l
    unfold offsetsLoop
    rcases hb : getBroker net l b with ⟨e | k, b1⟩
    · exact ⟨_, rfl⟩
    · simp only
      rcases ha : askOffsets net k.1 topic pids b1 with ⟨⟨r, _ | e⟩, b2⟩
      · unfold askOffsets at ha
        simp only [Prod.mk.injEq] at ha
        exact absurd (by rw [ha.1]) (hu k.1 pids b1.world)
      · exact ⟨_, rfl⟩

theorem listOffsets_unanswered {net : Net W} {topic : Bytes} {ps : List Int32} {ans : Int32 → PartitionOffset} (ho : OffsetsAre net topic ps ans) (hps : ps ≠ [])
    (hu : ∀ h pids w, (net.offsets h topic pids w).1.2 ≠ none) (b : Brokers W) : ∃ e b', listOffsets net topic b = (.err e, b') := by
  unfold listOffsets Brokers.requestOffsets
  rcases hm : requestMetaData net [topic] b with ⟨⟨r, _ | e⟩, b1⟩
  · obtain ⟨k, w, hk⟩ := requestMetaData_answer net _ _ _ _ hm
    obtain ⟨t, ht, hp⟩ := ho.metadata _ _ _ hk
    have hlt : ¬ ((-1 : Int32) ≥ 0) := by decide
    simp only [ht, if_neg hlt]
    have hne : (order net (byLeader t.partitions) b1).1 ≠ [] := by
      intro h0
      have hg := (byLeader_groups t.partitions).perm_left (ls' := (order net (byLeader t.partitions) b1).1) (net.shuffle_perm _ _)
      have := (hg.perm.trans hp)
      rw [h0] at this
      exact hps (this.symm.eq_nil)
    obtain ⟨e, he⟩ := offsetsLoop_unanswered hu _ hne [] (order net (byLeader t.partitions) b1).2
    rw [he]
    exact ⟨_, _, rfl⟩
  · exact ⟨_, _, rfl⟩

/-- C163: when leaders do not say the offsets, the tool prints nothing and fails, and the HTTP answer has status 500. -/
theorem C163_unanswered (net : Int64 → Net W) (topic : Bytes) (ps : List Int32) (hps : ps ≠ []) (ts : Int64) (ans : Int32 → PartitionOffset) (ho : OffsetsAre (net ts) topic ps ans)
    (hu : ∀ h pids w, ((net ts).offsets h topic pids w).1.2 ≠ none) (b : Brokers W) :
    (∃ e, (getOffsetsTool net topic (some ts) b).1 = { failed := some e }) ∧ (getTopicOffsets net topic (some (itoa ts.toInt)) b).1 = .status 500 := by
  obtain ⟨e, b', h⟩ := listOffsets_unanswered ho hps hu b
  have ha : atoi ((some (itoa ts.toInt)).getD []) = some ts := readsBack_itoa ts
  unfold getOffsetsTool getOffsetsCmd getTopicOffsets
  rw [ha]
  simp only [Option.getD_some, h]
  exact ⟨⟨_, rfl⟩, trivial⟩

/-- C163 does not hold without a timestamp, which the documentation of the HTTP API calls optional: every such request is refused with status 400, and no leader is asked. -/
theorem C163_violated_every_missing (net : Int64 → Net W) (topic : Bytes) (b : Brokers W) : getTopicOffsets net topic none b = (.status 400, b) := rfl

/-- C163 does not hold where a leader of version 0 has no offset for the timestamp and lists none: the tool, unless it fails, shows the offset 0. -/
theorem C163_violated_every_none (net : Int64 → Net W) (topic : Bytes) (ps : List Int32) (ts : Int64) (ans : Int32 → PartitionOffset) (ho : OffsetsAre (net ts) topic ps ans)
    (hv : ∀ p, (ans p).oldStyleOffsets.length ≤ 1 ∧ (ans p).offset = 0 ∧ (ans p).timestamp = 0) (p : Int32) (hp : p ∈ ps) (hnone : (ans p).oldStyleOffsets = [])
    (b : Brokers W) (hf : (getOffsetsTool net topic (some ts) b).1.failed = none) :
    (⟨p, 0, 0⟩ : OffsetLine) ∈ (getOffsetsTool net topic (some ts) b).1.lines := by
  obtain ⟨qs, hq, he⟩ := C163_tool_partial net topic ps (some ts) ans (fun p => (ans p).oldStyleOffsets.headD 0) ho (fun q _ => by
    rcases hl : (ans q).oldStyleOffsets with _ | ⟨o, l⟩
    · exact .inr ⟨hl, by simp [(hv q).2.1]⟩
    · have := (hv q).1
      rw [hl] at this
      simp only [List.length_cons] at this
      have hl0 : l = [] := List.length_eq_zero_iff.1 (by omega)
      subst hl0
      exact .inl hl) b hf
  rw [he]
  refine List.mem_map.2 ⟨p, hq.1.mem_iff.2 hp, ?_⟩
  simp [hnone, (hv p).2.2]

/-- the cluster of `tallyNet` for every timestamp -/
example : OffsetsAre tallyNet [116] [0, 1, 2] fun p => ⟨p, 0, [], 0, 10 * (p.toInt64 + 1)⟩ := by
  refine ⟨by decide, fun _ => rfl, ?_, ?_⟩
  · intro h w r hr
    simp only [tallyNet, goodNet, demoNet, Prod.mk.injEq, and_true] at hr
    subst hr
    exact ⟨_, rfl, by decide⟩
  · intro h pids w r hr
    simp only [tallyNet, Prod.mk.injEq, and_true] at hr
    subst hr
    simp

example : (getOffsetsTool (fun _ => tallyNet) [116] none (demoBrokers tallyNet)).1 = { lines := [⟨0, 0, 10⟩, ⟨1, 0, 20⟩, ⟨2, 0, 30⟩] } := by decide +kernel

-- "-2"
example : (getTopicOffsets (fun _ => tallyNet) [116] (some [45, 50]) (demoBrokers tallyNet)).1 =
    .offsets [⟨0, 0, [], 0, 10⟩, ⟨1, 0, [], 0, 20⟩, ⟨2, 0, [], 0, 30⟩] := by decide +kernel

example : (getTopicOffsets (fun _ => muteNet) [116] (some [45, 50]) (demoBrokers muteNet)).1 = .status 500 := by decide +kernel

/-- leaders of version 0: partition 1 has no offset for the timestamp -/
def oldNet : Net Nat :=
  { goodNet with offsets := fun _ _ ps w => ((⟨0, 0, [([116], ps.map fun p => ⟨p, 0, if p = 1 then [] else [7], 0, 0⟩)]⟩, none), w + 1) }

example : (getOffsetsTool (fun _ => oldNet) [116] (some 5) (demoBrokers oldNet)).1.lines = [⟨0, 0, 7⟩, ⟨1, 0, 0⟩, ⟨2, 0, 7⟩] := by decide +kernel

/-! ## C165: get-metadata -/

/-- C165, JSON: what is printed, if the cluster could be asked, is the answer of a broker.
Missing for the full statement: failures (`C165_violated_every_failure`). -/
theorem C165_json_partial (net : Net W) (topics : List Bytes) (b b' : Brokers W) (r : MetadataResponse) (h : requestMetaData net topics b = ((r, none), b')) :
    (getMetadataCmd net topics [106, 115, 111, 110] b).1.1 = .json r ∧ ∃ k w, (net.metadata k topics w).1 = (r, none) := by
  refine ⟨?_, requestMetaData_answer net _ _ _ _ h⟩
  unfold getMetadataCmd
  simp only [h]
  rfl

theorem addresses_get (r : MetadataResponse) (x : BrokerInfo) (hx : x ∈ r.brokers) (hone : ∀ y ∈ r.brokers, y.nodeID = x.nodeID → y = x) :
    (addresses r).get x.nodeID = some x.netAddress := by
  unfold addresses
  rw [setAll_get _ _ _ x.netAddress]
  · rw [if_pos]
    exact List.mem_map.2 ⟨(x.nodeID, x.netAddress), List.mem_map.2 ⟨x, hx, rfl⟩, rfl⟩
  · intro e he hk
    obtain ⟨y, hy, rfl⟩ := List.mem_map.1 he
    rw [hone y hy hk]

/-- C165, `--format cat`: every broker of the answer is printed with its address, and for every partition of every topic, in the order of the answer, one line, which shows the address
of its leader, if the answer tells it once.
Missing for the full statement: as for `C165_json_partial`. -/
theorem C165_cat_partial (net : Net W) (topics : List Bytes) (b b' : Brokers W) (r : MetadataResponse) (h : requestMetaData net topics b = ((r, none), b')) :
    ∃ lines, (getMetadataCmd net topics [99, 97, 116] b).1.1 = .cat (r.brokers.map fun x => (x.nodeID, x.netAddress)) lines ∧
      lines.map (fun l => (l.1, l.2.1)) = r.topics.flatMap (fun t => t.partitions.map fun p => (t.name, p.partitionID)) ∧
      ∀ t ∈ r.topics, ∀ p ∈ t.partitions, ∀ x ∈ r.brokers, x.nodeID = p.leader → (∀ y ∈ r.brokers, y.nodeID = x.nodeID → y = x) →
        (t.name, p.partitionID, x.netAddress) ∈ lines := by
  refine ⟨r.topics.flatMap fun t => t.partitions.map fun p => (t.name, p.partitionID, ((addresses r).get p.leader).getD []), ?_, ?_, ?_⟩
  · unfold getMetadataCmd
    simp only [h]
    rfl
  · rw [List.map_flatMap]
    simp [Function.comp_def]
  · intro t ht p hp x hx hl hone
    refine List.mem_flatMap.2 ⟨t, ht, List.mem_map.2 ⟨p, hp, ?_⟩⟩
    rw [← hl, addresses_get r x hx hone]
    rfl

example : (getMetadataCmd goodNet [[116]] [99, 97, 116] (demoBrokers goodNet)).1.1 =
    .cat [(1, [97, 58, 49]), (2, [98, 58, 49])] [([116], 0, [98, 58, 49]), ([116], 1, [97, 58, 49]), ([116], 2, [98, 58, 49])] := by decide +kernel

/-- C165 does not hold when the cluster cannot be asked: the tool reports no error, ever. -/
theorem C165_violated_every_failure (net : Net W) (topics : List Bytes) (format : Bytes) (b b' : Brokers W) (r : MetadataResponse) (e : Err)
    (_ : requestMetaData net topics b = ((r, some e), b')) : (getMetadataCmd net topics format b).1.2 = none := rfl

/-- C165 does not hold when no broker answers: the tool prints an empty cluster, as if it had neither brokers nor topics, and reports success. -/
theorem C165_violated_every_unanswered (net : Net W) (topics : List Bytes) (hm : ∀ h w, ∃ e, (net.metadata h topics w).1.2 = some e ∧ e.isKafka = false) (b : Brokers W) :
    (getMetadataCmd net topics [106, 115, 111, 110] b).1 = (.json ⟨0, 0, [], [], 0, []⟩, none) := by
  have hloop : ∀ is (b : Brokers W), (metadataLoop net topics is b).1 = (⟨0, 0, [], [], 0, []⟩, some .noAvailableBrokers) := by
    intro is
    induction is with
    | nil => intro b; rfl
    | cons i is ih =>
      intro b
      unfold metadataLoop
      rcases getBroker net i.nodeID b with ⟨_ | k, b1⟩
      · exact ih b1
      · simp only
        obtain ⟨e, he, hk⟩ := hm k.1 b1.world
        rcases ha : askMetadata net k.1 topics b1 with ⟨⟨r, o⟩, b2⟩
        unfold askMetadata at ha
        simp only [Prod.mk.injEq] at ha
        rw [ha.1] at he
        simp only at he
        subst he
        simp only [hk]
        exact ih b2
  unfold getMetadataCmd requestMetaData
  simp only [hloop]
  rfl

example : (getMetadataCmd deadNet [[116]] [106, 115, 111, 110] { demoBrokers deadNet with world := 5 }).1 = (.json ⟨0, 0, [], [], 0, []⟩, none) := by decide +kernel

/-- C165 does not hold for a format the tool does not know: it prints nothing, whatever the cluster answers, and reports success. -/
theorem C165_violated_every_format (net : Net W) (topics : List Bytes) (format : Bytes) (h1 : format ≠ [106, 115, 111, 110]) (h2 : format ≠ [99, 97, 116]) (b : Brokers W) :
    (getMetadataCmd net topics format b).1 = (.nothing, none) := by
  unfold getMetadataCmd showMetadata
  simp only [if_neg h1, if_neg h2]

/-! ## C166: asking does not create -/

open Kafka (IsString)

/-- Kafka (KIP-204, KIP-361): a metadata request allows a broker which creates topics automatically to create the ones it names, if its version is below 4, or if it says so. -/
def MayCreate (version : Nat) (topics : Option (List Bytes)) (flag : Bool) (topic : Bytes) : Prop :=
  topic ∈ topics.getD [] ∧ (4 ≤ version → flag = true)

/-- C166: asking for all topics lets the broker create none.
Missing for the full statement: requests naming topics (`C166_violated_every`). -/
theorem C166_all_partial {b : Broker} {c : Conn} (hb : b.Ready c) (client : Bytes)
    (v : UInt16) (hn : getHighestAvailableAPIVersion b.apiVersions API_MetadataRequest = v)
    (hv : v ∈ clientVersions API_MetadataRequest) (corr : UInt32)
    (throttle controller : Int32) (brokers : List SentBroker) (cluster : Bytes) (topics : List TopicMetadata)
    (hbs : ∀ b ∈ brokers, b.Fits) (hcl : IsString cluster) (ht : ∀ t ∈ topics, IsString t.name)
    (hl : (Kafka.response .metadata v.toNat corr.toNat [] (Kafka.metadataResponse v.toNat throttle.toInt
      (brokers.map SentBroker.wire) (some cluster) controller.toInt (topics.map TopicMetadata.wire))).length < 2 ^ 31)
    {chunks : List Bytes} {extra : Bytes} {tail : List Ev}
    (hc : c.Delivers (Kafka.response .metadata v.toNat corr.toNat [] (Kafka.metadataResponse v.toNat throttle.toInt
      (brokers.map SentBroker.wire) (some cluster) controller.toInt (topics.map TopicMetadata.wire))) chunks extra tail) :
    ∃ flag, (∃ left, (askMetaData client none b).2 = b.after c (Kafka.request .metadata v.toNat (b.correlationID + 1).toNat (some client)
      (Kafka.metadataRequest v.toNat none flag)) left) ∧ ∀ t, ¬ MayCreate v.toNat none flag t := by
  obtain ⟨left, r, e, -, -, -, -, -, h⟩ := C138_metadata_partial hb client none v hn hv corr throttle controller brokers cluster topics hbs hcl ht hl hc
  refine ⟨true, ⟨_, by rw [h]⟩, ?_⟩
  rintro t ⟨ht, -⟩
  simp at ht

/-- C166 does not hold: whenever the metadata of topics is asked for, in whatever version, the bytes sent allow the broker to create each of them. -/
theorem C166_violated_every {b : Broker} {c : Conn} (hb : b.Ready c) (client : Bytes) (asked : List Bytes)
    (v : UInt16) (hn : getHighestAvailableAPIVersion b.apiVersions API_MetadataRequest = v)
    (hv : v ∈ clientVersions API_MetadataRequest) (corr : UInt32)
    (throttle controller : Int32) (brokers : List SentBroker) (cluster : Bytes) (topics : List TopicMetadata)
    (hbs : ∀ b ∈ brokers, b.Fits) (hcl : IsString cluster) (ht : ∀ t ∈ topics, IsString t.name)
    (hl : (Kafka.response .metadata v.toNat corr.toNat [] (Kafka.metadataResponse v.toNat throttle.toInt
      (brokers.map SentBroker.wire) (some cluster) controller.toInt (topics.map TopicMetadata.wire))).length < 2 ^ 31)
    {chunks : List Bytes} {extra : Bytes} {tail : List Ev}
    (hc : c.Delivers (Kafka.response .metadata v.toNat corr.toNat [] (Kafka.metadataResponse v.toNat throttle.toInt
      (brokers.map SentBroker.wire) (some cluster) controller.toInt (topics.map TopicMetadata.wire))) chunks extra tail) :
    ∃ flag, (∃ left, (askMetaData client (some asked) b).2 = b.after c (Kafka.request .metadata v.toNat (b.correlationID + 1).toNat (some client)
      (Kafka.metadataRequest v.toNat (some asked) flag)) left) ∧ ∀ t ∈ asked, MayCreate v.toNat (some asked) flag t := by
  obtain ⟨left, r, e, -, -, -, -, -, h⟩ := C138_metadata_partial hb client (some asked) v hn hv corr throttle controller brokers cluster topics hbs hcl ht hl hc
  exact ⟨true, ⟨_, by rw [h]⟩, fun t ht => ⟨ht, fun _ => rfl⟩⟩

/-- "t" is asked for in version 7: the request ends with the flag that allows creating it. -/
example : (askMetaData [99] (some [[116]]) (askBroker [.fail .eof])).2.log =
    [.send 0 [0, 0, 0, 19, 0, 3, 0, 7, 0, 0, 0, 7, 0, 1, 99, 0, 0, 0, 1, 0, 1, 116, 1], .close 0] := by decide +kernel

end Healer
