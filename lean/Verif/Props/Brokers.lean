import Verif.Model.Brokers
import Mathlib.Data.List.Nodup

/-!
# C33-C35, C92-C95: the set of brokers
-/

namespace Healer

open Brokers

variable {W : Type}

/-- Node infos are stored under their own node id, once. -/
structure InfosOk (m : AMap Int32 BrokerInfo) : Prop where
  key : ∀ e ∈ m, e.2.nodeID = e.1
  nodup : m.keys.Nodup

theorem InfosOk.nil : InfosOk [] := ⟨by simp, by simp [AMap.keys]⟩

theorem InfosOk.set {m : AMap Int32 BrokerInfo} (h : InfosOk m) (i : BrokerInfo) : InfosOk (m.set i.nodeID i) := by
  refine ⟨?_, AMap.nodup_keys_set _ _ _ h.nodup⟩
  have : ∀ (m : AMap Int32 BrokerInfo), (∀ e ∈ m, e.2.nodeID = e.1) → ∀ e ∈ m.set i.nodeID i, e.2.nodeID = e.1 := by
    intro m
    induction m with
    | nil => intro _ e he; simp only [AMap.set, List.mem_cons, List.not_mem_nil, or_false] at he; subst he; rfl
    | cons x m ih =>
      intro hm e he
      obtain ⟨k, v⟩ := x
      simp only [AMap.set] at he
      split at he
      · rcases List.mem_cons.1 he with rfl | he
        · rfl
        · exact hm e (.tail _ he)
      · rcases List.mem_cons.1 he with rfl | he
        · exact hm _ (.head _)
        · exact ih (fun e he => hm e (.tail _ he)) e he
  exact this m h.key

theorem InfosOk.foldl (bs : List BrokerInfo) : ∀ {m : AMap Int32 BrokerInfo}, InfosOk m →
    InfosOk (bs.foldl (fun m i => m.set i.nodeID i) m) := by
  induction bs with
  | nil => exact fun h => h
  | cons i bs ih => exact fun h => ih (h.set i)

theorem InfosOk.of (bs : List BrokerInfo) : InfosOk (infosOf bs) := .foldl bs .nil

theorem InfosOk.get {m : AMap Int32 BrokerInfo} (h : InfosOk m) {i : BrokerInfo} (hi : i ∈ m.map Prod.snd) :
    m.get i.nodeID = some i := by
  obtain ⟨key, nodup⟩ := h
  induction m with
  | nil => simp at hi
  | cons e m ih =>
    obtain ⟨k, v⟩ := e
    have hk : v.nodeID = k := key _ (.head _)
    simp only [AMap.keys, List.map_cons, List.nodup_cons] at nodup
    rw [AMap.get_cons]
    rcases List.mem_cons.1 hi with h0 | h0
    · rw [if_pos (by rw [h0]; exact hk), h0]
    · have hm := ih h0 (fun e he => key e (.tail _ he)) nodup.2
      rw [if_neg, hm]
      intro he
      obtain ⟨x, hx, rfl⟩ := List.mem_map.1 h0
      exact nodup.1 (he ▸ (key x (.tail _ hx)) ▸ List.mem_map_of_mem hx)

/-- A step that leaves the cache alone. -/
structure Looks (b b' : Brokers W) : Prop where
  cache : b'.cache = b.cache
  log : ∃ ext, b'.log = b.log ++ ext
  infos : InfosOk b.infos → InfosOk b'.infos
  controller : b'.controllerID = b.controllerID

theorem Looks.refl (b : Brokers W) : Looks b b := ⟨rfl, ⟨[], by simp⟩, id, rfl⟩

theorem Looks.trans {b b' b'' : Brokers W} (h : Looks b b') (h' : Looks b' b'') : Looks b b'' := by
  obtain ⟨x, hx⟩ := h.log
  obtain ⟨y, hy⟩ := h'.log
  exact ⟨h'.cache.trans h.cache, ⟨x ++ y, by rw [hy, hx, List.append_assoc]⟩, fun hi => h'.infos (h.infos hi), h'.controller.trans h.controller⟩

/-- What every operation leaves true: the cache keeps its entries, and the log only grows. -/
structure Grows (b b' : Brokers W) : Prop where
  cache : ∀ n h, b.cache.get n = some h → b'.cache.get n = some h
  log : ∃ ext, b'.log = b.log ++ ext
  infos : InfosOk b.infos → InfosOk b'.infos
  nodup : b.cache.keys.Nodup → b'.cache.keys.Nodup
  controller : b'.controllerID = b.controllerID

theorem Looks.grows {b b' : Brokers W} (h : Looks b b') : Grows b b' :=
  ⟨fun _ _ hk => h.cache ▸ hk, h.log, h.infos, fun hn => h.cache ▸ hn, h.controller⟩

theorem Grows.refl (b : Brokers W) : Grows b b := (Looks.refl b).grows

theorem Grows.trans {b b' b'' : Brokers W} (h : Grows b b') (h' : Grows b' b'') : Grows b b'' := by
  obtain ⟨x, hx⟩ := h.log
  obtain ⟨y, hy⟩ := h'.log
  exact ⟨fun n k hk => h'.cache n k (h.cache n k hk), ⟨x ++ y, by rw [hy, hx, List.append_assoc]⟩,
    fun hi => h'.infos (h.infos hi), fun hn => h'.nodup (h.nodup hn), h'.controller.trans h.controller⟩

variable (net : Net W)

theorem connect_quiet (a : Bytes) (n : Int32) (b : Brokers W) :
    ∃ d, (Brokers.connect net a n b).2.log = b.log ++ [d] ∧ (Brokers.connect net a n b).2.cache = b.cache ∧
      (Brokers.connect net a n b).2.infos = b.infos ∧
      ((∃ h, (Brokers.connect net a n b).1 = .ok h ∧ d = .connected a n h) ∨
        ∃ e, (Brokers.connect net a n b).1 = .error e ∧ d = .connectFailed a n e) := by
  unfold Brokers.connect
  rcases net.connect a n b.world with ⟨_ | h, w⟩
  · exact ⟨_, rfl, rfl, rfl, .inr ⟨_, rfl, rfl⟩⟩
  · exact ⟨_, rfl, rfl, rfl, .inl ⟨_, rfl, rfl⟩⟩

theorem connect_looks (a : Bytes) (n : Int32) (b : Brokers W) : Looks b (Brokers.connect net a n b).2 := by
  obtain ⟨d, h1, h2, h3, -⟩ := connect_quiet net a n b
  refine ⟨h2, ⟨[d], h1⟩, fun h => h3 ▸ h, ?_⟩
  unfold Brokers.connect
  rcases net.connect a n b.world with ⟨_ | h, w⟩ <;> rfl

theorem askMetadata_looks (h : Nat) (ts : List Bytes) (b : Brokers W) : Looks b (askMetadata net h ts b).2 :=
  ⟨rfl, ⟨_, rfl⟩, id, rfl⟩

theorem askOffsets_looks (h : Nat) (t : Bytes) (ps : List Int32) (b : Brokers W) : Looks b (askOffsets net h t ps b).2 :=
  ⟨rfl, ⟨_, rfl⟩, id, rfl⟩

theorem askCoordinator_looks (h : Nat) (g : Bytes) (b : Brokers W) : Looks b (askCoordinator net h g b).2 :=
  ⟨rfl, ⟨_, rfl⟩, id, rfl⟩

theorem askListGroups_looks (h : Nat) (b : Brokers W) : Looks b (askListGroups net h b).2 :=
  ⟨rfl, ⟨_, rfl⟩, id, rfl⟩

theorem order_looks {α : Type} (l : List α) (b : Brokers W) : Looks b (order net l b).2 :=
  ⟨rfl, ⟨[], by simp [order]⟩, id, rfl⟩

theorem setInfos_looks (b : Brokers W) (bs : List BrokerInfo) : Looks b { b with infos := infosOf bs } :=
  ⟨rfl, ⟨[], by simp⟩, fun _ => .of bs, rfl⟩

theorem log_looks (b : Brokers W) (d : Done) : Looks b { b with log := b.log ++ [d] } :=
  ⟨rfl, ⟨[d], rfl⟩, id, rfl⟩

theorem refreshBootstrap_looks (as : List Bytes) (b : Brokers W) : Looks b (refreshBootstrap net as b) := by
  induction as generalizing b with
  | nil => exact .refl b
  | cons a as ih =>
    have h1 := connect_looks net a (-1) b
    unfold refreshBootstrap
    revert h1
    rcases Brokers.connect net a (-1) b with ⟨_ | h, b1⟩ <;> intro h1
    · exact h1.trans (ih b1)
    · have h2 := h1.trans (askMetadata_looks net h [] b1)
      simp only
      split
      · exact h2.trans (Looks.trans (log_looks (askMetadata net h [] b1).2 _) (ih _))
      · exact h2.trans ((setInfos_looks _ _).trans (ih _))

theorem refreshKnown_looks (is : List BrokerInfo) (b : Brokers W) : Looks b (refreshKnown net is b).2 := by
  induction is generalizing b with
  | nil => exact .refl b
  | cons i is ih =>
    have h1 := connect_looks net i.netAddress (-1) b
    unfold refreshKnown
    revert h1
    rcases Brokers.connect net i.netAddress (-1) b with ⟨_ | h, b1⟩ <;> intro h1
    · exact h1.trans (ih b1)
    · have h2 := h1.trans (askMetadata_looks net h [] b1)
      simp only
      split
      · exact h2.trans (ih _)
      · exact h2.trans (setInfos_looks _ _)

theorem refresh_looks (b : Brokers W) : Looks b (refreshMetadata net b).2 :=
  (refreshBootstrap_looks net b.bootstrap b).trans ((order_looks net _ _).trans (refreshKnown_looks net _ _))

theorem ensureKnown_looks (n : Int32) (b : Brokers W) : Looks b (ensureKnown net n b) := by
  unfold ensureKnown
  split
  · exact .refl b
  · exact refresh_looks net b

theorem createBroker_looks (n : Int32) (b : Brokers W) : Looks b (createBroker net n b).2 := by
  unfold createBroker
  split
  · exact .refl b
  · rename_i i _
    have h1 := connect_looks net i.netAddress i.nodeID b
    revert h1
    rcases Brokers.connect net i.netAddress i.nodeID b with ⟨_ | h, b1⟩ <;> intro h1 <;> exact h1

/-- `GetBroker` keeps what is cached, and what it returns is cached afterwards. -/
theorem getBroker_spec (n : Int32) (b : Brokers W) : Grows b (getBroker net n b).2 ∧
    ∀ h, (getBroker net n b).1 = .ok h → (getBroker net n b).2.cache.get n = some h := by
  unfold getBroker
  cases hc : b.cache.get n with
  | some h => exact ⟨.refl b, fun k hk => by cases hk; exact hc⟩
  | none =>
    have h1 := (ensureKnown_looks net n b).trans (createBroker_looks net n _)
    simp only
    revert h1
    rcases createBroker net n (ensureKnown net n b) with ⟨_ | h, b1⟩ <;> intro h1
    · exact ⟨h1.grows, fun k hk => by cases hk⟩
    · have hcache : b1.cache = b.cache := h1.cache
      refine ⟨⟨fun m k hk => ?_, h1.log, h1.infos, fun hn => ?_, h1.controller⟩, fun k hk => ?_⟩
      · change (b1.cache.set n h).get m = some k
        rw [AMap.get_set, hcache, if_neg, hk]
        rintro rfl
        rw [hc] at hk
        cases hk
      · exact AMap.nodup_keys_set _ _ _ (hcache ▸ hn)
      · cases hk
        change (b1.cache.set n h).get n = some h
        rw [AMap.get_set, if_pos rfl]

theorem getBroker_grows (n : Int32) (b : Brokers W) : Grows b (getBroker net n b).2 := (getBroker_spec net n b).1

theorem metadataLoop_grows (ts : List Bytes) (is : List BrokerInfo) (b : Brokers W) : Grows b (metadataLoop net ts is b).2 := by
  induction is generalizing b with
  | nil => exact .refl b
  | cons i is ih =>
    have h1 := getBroker_grows net i.nodeID b
    unfold metadataLoop
    revert h1
    rcases getBroker net i.nodeID b with ⟨_ | h, b1⟩ <;> intro h1
    · exact h1.trans (ih b1)
    · have h2 := h1.trans (askMetadata_looks net h.1 ts b1).grows
      simp only
      revert h2
      rcases askMetadata net h.1 ts b1 with ⟨⟨r, _ | e⟩, b2⟩ <;> intro h2
      · exact h2
      · simp only
        split
        · exact h2
        · exact h2.trans (ih b2)

theorem requestMetaData_grows (ts : List Bytes) (b : Brokers W) : Grows b (requestMetaData net ts b).2 :=
  (order_looks net _ b).grows.trans (metadataLoop_grows net ts _ _)

theorem offsetsLoop_grows (t : Bytes) (ls : List (Int32 × List Int32)) (acc : List OffsetsResponse) (b : Brokers W) :
    Grows b (offsetsLoop net t ls acc b).2 := by
  induction ls generalizing b acc with
  | nil => exact .refl b
  | cons l ls ih =>
    obtain ⟨l, ps⟩ := l
    have h1 := getBroker_grows net l b
    unfold offsetsLoop
    revert h1
    rcases getBroker net l b with ⟨_ | h, b1⟩ <;> intro h1
    · exact h1
    · have h2 := h1.trans (askOffsets_looks net h.1 t ps b1).grows
      simp only
      revert h2
      rcases askOffsets net h.1 t ps b1 with ⟨⟨r, _ | e⟩, b2⟩ <;> intro h2
      · exact h2.trans (ih _ b2)
      · exact h2

theorem offsetsOfPartition_grows (t : Bytes) (p : Int32) (ps : List PartitionMetadataInfo) (b : Brokers W) :
    Grows b (offsetsOfPartition net t p ps b).2 := by
  unfold offsetsOfPartition
  split
  · exact .refl b
  · rename_i x _
    have h1 := getBroker_grows net x.leader b
    revert h1
    rcases getBroker net x.leader b with ⟨_ | h, b1⟩ <;> intro h1
    · exact h1
    · have h2 := h1.trans (askOffsets_looks net h.1 t [p] b1).grows
      simp only
      revert h2
      rcases askOffsets net h.1 t [p] b1 with ⟨⟨r, _ | e⟩, b2⟩ <;> intro h2 <;> exact h2

theorem requestOffsets_grows (t : Bytes) (p : Int32) (b : Brokers W) : Grows b (requestOffsets net t p b).2 := by
  have h1 := requestMetaData_grows net [t] b
  unfold requestOffsets
  revert h1
  rcases requestMetaData net [t] b with ⟨⟨r, _ | e⟩, b1⟩ <;> intro h1
  · simp only
    cases r.topics with
    | nil => exact h1
    | cons t' _ =>
      simp only
      split
      · exact h1.trans (offsetsOfPartition_grows net t p _ b1)
      · exact h1.trans ((order_looks net _ b1).grows.trans (offsetsLoop_grows net t _ [] _))
  · exact h1

theorem findLeader_grows (t : Bytes) (p : Int32) (b : Brokers W) : Grows b (findLeader net t p b).2 := by
  have h1 := requestMetaData_grows net [t] b
  unfold findLeader
  revert h1
  rcases requestMetaData net [t] b with ⟨⟨r, _ | e⟩, b1⟩ <;> intro h1 <;> simp only
  · cases r.topics with
    | nil => exact h1
    | cons t' _ => simp only; cases t'.partitions.find? _ <;> exact h1
  · split
    · cases r.topics with
      | nil => exact h1
      | cons t' _ => simp only; cases t'.partitions.find? _ <;> exact h1
    · exact h1

theorem coordinatorLoop_grows (g : Bytes) (is : List BrokerInfo) (b : Brokers W) :
    Grows b (coordinatorLoop net g is b).2 := by
  induction is generalizing b with
  | nil => exact .refl b
  | cons i is ih =>
    have h1 := getBroker_grows net i.nodeID b
    unfold coordinatorLoop
    revert h1
    rcases getBroker net i.nodeID b with ⟨_ | h, b1⟩ <;> intro h1
    · exact h1.trans (ih b1)
    · have h2 := h1.trans (askCoordinator_looks net h.1 g b1).grows
      simp only
      revert h2
      rcases askCoordinator net h.1 g b1 with ⟨⟨r, _ | e⟩, b2⟩ <;> intro h2
      · exact h2
      · exact h2.trans (ih b2)

theorem findCoordinator_grows (g : Bytes) (b : Brokers W) : Grows b (findCoordinator net g b).2 :=
  (order_looks net (b.infos.map Prod.snd) b).grows.trans (coordinatorLoop_grows net g _ _)

theorem listGroupsLoop_grows (is : List BrokerInfo) (acc : AMap Int32 (List ListedGroup)) (b : Brokers W) :
    Grows b (listGroupsLoop net is acc b).2 := by
  induction is generalizing b acc with
  | nil => exact .refl b
  | cons i is ih =>
    have h1 := getBroker_grows net i.nodeID b
    unfold listGroupsLoop
    revert h1
    rcases getBroker net i.nodeID b with ⟨_ | h, b1⟩ <;> intro h1
    · exact h1
    · have h2 := h1.trans (askListGroups_looks net h.1 b1).grows
      simp only
      revert h2
      rcases askListGroups net h.1 b1 with ⟨⟨_ | r, _ | e⟩, b2⟩ <;> intro h2
      · exact h2
      · exact h2
      · exact h2.trans (ih _ b2)
      · exact h2

theorem listGroups_grows (b : Brokers W) : Grows b (listGroups net b).2 :=
  (order_looks net (b.infos.map Prod.snd) b).grows.trans (listGroupsLoop_grows net _ _ _)

/-- An operation on the set of brokers. -/
inductive BOp where
  | get (node : Int32)
  | new (node : Int32)
  | refresh
  | metadata (topics : List Bytes)
  | offsets (topic : Bytes) (partition : Int32)
  | leader (topic : Bytes) (partition : Int32)
  | coordinator (group : Bytes)
  | listGroups

/-- The state after an operation. -/
def BOp.run : BOp → Brokers W → Brokers W
  | .get n, b => (getBroker net n b).2
  | .new n, b => (Brokers.newBroker net n b).2
  | .refresh, b => (refreshMetadata net b).2
  | .metadata ts, b => (requestMetaData net ts b).2
  | .offsets t p, b => (requestOffsets net t p b).2
  | .leader t p, b => (findLeader net t p b).2
  | .coordinator g, b => (findCoordinator net g b).2
  | .listGroups, b => (Brokers.listGroups net b).2

/-- The state after operations. -/
def runOps (ops : List BOp) (b : Brokers W) : Brokers W := ops.foldl (fun b o => o.run net b) b

theorem run_grows (o : BOp) (b : Brokers W) : Grows b (o.run net b) := by
  cases o with
  | get n => exact getBroker_grows net n b
  | new n => exact ((ensureKnown_looks net n b).trans (createBroker_looks net n _)).grows
  | refresh => exact (refresh_looks net b).grows
  | metadata ts => exact requestMetaData_grows net ts b
  | offsets t p => exact requestOffsets_grows net t p b
  | leader t p => exact findLeader_grows net t p b
  | coordinator g => exact findCoordinator_grows net g b
  | listGroups => exact listGroups_grows net b

theorem runOps_grows (ops : List BOp) (b : Brokers W) : Grows b (runOps net ops b) := by
  induction ops generalizing b with
  | nil => exact .refl b
  | cons o ops ih => exact (run_grows net o b).trans (ih _)

/-- C33: once a look-up of a node returned a broker object, every later look-up of that node, after any operations,
returns the same object and does nothing else. -/
theorem C33_same (n : Int32) (b b' : Brokers W) (h : Nat × Int32) (hg : getBroker net n b = (.ok h, b'))
    (ops : List BOp) : getBroker net n (runOps net ops b') = (.ok h, runOps net ops b') := by
  have h1 := (getBroker_spec net n b).2
  rw [hg] at h1
  have h2 := (runOps_grows net ops b').cache n h (h1 h rfl)
  rw [getBroker, h2]

/-- C33: after any operations at most one object is kept for a node id. -/
theorem C33_one (b : Brokers W) (hb : b.cache.keys.Nodup) (ops : List BOp) : (runOps net ops b).cache.keys.Nodup :=
  (runOps_grows net ops b).nodup hb

/-- what `fromOne` does with one broker of the answer -/
theorem fromOne_fold (address : Bytes) (h : Nat) (bs : List BrokerInfo) (b : Brokers W)
    (hi : InfosOk b.infos) (hn : b.cache.keys.Nodup) :
    let b' := bs.foldl (fun (b : Brokers W) i =>
      { b with infos := b.infos.set i.nodeID i
               cache := if address = i.netAddress then b.cache.set i.nodeID (h, -1) else b.cache }) b
    InfosOk b'.infos ∧ b'.cache.keys.Nodup := by
  induction bs generalizing b with
  | nil => exact ⟨hi, hn⟩
  | cons i bs ih =>
    refine ih _ (hi.set i) ?_
    change (if address = i.netAddress then b.cache.set i.nodeID (h, -1) else b.cache).keys.Nodup
    split
    · exact AMap.nodup_keys_set _ _ _ hn
    · exact hn

/-- The brokers made from a bootstrap broker are in a good state. -/
theorem fromOne_ok (bootstrap : List Bytes) (a : Bytes) (h : Nat) (w : W) (b : Brokers W)
    (hb : fromOne net bootstrap a h w = .ok b) : InfosOk b.infos ∧ b.cache.keys.Nodup := by
  unfold fromOne at hb
  simp only at hb
  rcases hm : askMetadata net h [] ⟨bootstrap, [], [], 0, w, []⟩ with ⟨⟨r, _ | e⟩, b0⟩
  · rw [hm] at hb
    simp only at hb
    split at hb
    · cases hb
    · cases hb
      have hb0 : b0 = (askMetadata net h [] ⟨bootstrap, [], [], 0, w, []⟩).2 := by rw [hm]
      refine fromOne_fold a h r.brokers _ ?_ ?_
      · rw [hb0]; exact .nil
      · rw [hb0]; exact List.nodup_nil
  · rw [hm] at hb
    cases hb

/-- `GetBroker` of a known node does at most one thing: connect to the address known for it. -/
theorem getBroker_known (n : Int32) (b : Brokers W) (i : BrokerInfo) (hi : b.infos.get n = some i) :
    (getBroker net n b).2.infos = b.infos ∧
    ((∃ h, (getBroker net n b).1 = .ok h ∧ (getBroker net n b).2.cache.get n = some h ∧
        ((getBroker net n b).2.log = b.log ∨
          (getBroker net n b).2.log = b.log ++ [.connected i.netAddress i.nodeID h.1])) ∨
     ∃ e e', (getBroker net n b).1 = .error e ∧
        (getBroker net n b).2.log = b.log ++ [.connectFailed i.netAddress i.nodeID e']) := by
  have hs := (getBroker_spec net n b).2
  revert hs
  unfold getBroker
  cases hc : b.cache.get n with
  | some h => exact fun _ => ⟨rfl, .inl ⟨h, rfl, hc, .inl rfl⟩⟩
  | none =>
    simp only
    rw [ensureKnown, hi]
    simp only
    unfold createBroker
    rw [hi]
    simp only
    obtain ⟨d, h1, h2, h3, h4⟩ := connect_quiet net i.netAddress i.nodeID b
    revert h1 h2 h3 h4
    rcases Brokers.connect net i.netAddress i.nodeID b with ⟨_ | h, b1⟩ <;> intro h1 h2 h3 h4 hs
    · refine ⟨h3, .inr ?_⟩
      rcases h4 with ⟨h, h4, h5⟩ | ⟨e, h4, h5⟩
      · cases h4
      · exact ⟨_, e, rfl, by rw [← h5]; exact h1⟩
    · refine ⟨h3, .inl ⟨_, rfl, hs _ rfl, .inr ?_⟩⟩
      rcases h4 with ⟨h', h4, h5⟩ | ⟨e, h4, h5⟩
      · cases h4
        rw [← h5]
        exact h1
      · cases h4

/-- A metadata request that was answered, be it with an error of the cluster. -/
def Done.answered : Done → Bool
  | .metadata _ _ (_, none) => true
  | .metadata _ _ (_, some e) => e.isKafka
  | _ => false

/-- Connecting to node `i`, or asking it for metadata, failed. -/
def FailedAt (b : Brokers W) (i : BrokerInfo) (topics : List Bytes) (d : Done) : Prop :=
  (∃ e, d = .connectFailed i.netAddress i.nodeID e) ∨
  ∃ h n r e, d = .metadata h topics (r, some e) ∧ e.isKafka = false ∧ b.cache.get i.nodeID = some (h, n)

/-- The outcome of asking the nodes `is` in turn. -/
def Failover (topics : List Bytes) (is : List BrokerInfo) (b : Brokers W)
    (x : (MetadataResponse × Option Err) × Brokers W) : Prop :=
  (∃ i h n pre, i ∈ is ∧ x.2.cache.get i.nodeID = some (h, n) ∧
      x.2.log = b.log ++ pre ++ [.metadata h topics x.1] ∧
      (x.1.2 = none ∨ ∃ e, x.1.2 = some e ∧ e.isKafka = true) ∧
      ∀ d ∈ pre, d.answered = false) ∨
  (x.1.2 = some .noAvailableBrokers ∧ ∃ ext, x.2.log = b.log ++ ext ∧
      (∀ d ∈ ext, d.answered = false) ∧ ∀ i ∈ is, ∃ d ∈ ext, FailedAt x.2 i topics d)

/-- putting failed steps in front -/
theorem Failover.after {topics : List Bytes} {i : BrokerInfo} {is : List BrokerInfo} {b b1 : Brokers W}
    {x : (MetadataResponse × Option Err) × Brokers W} (h : Failover topics is b1 x) (pre : List Done)
    (hl : b1.log = b.log ++ pre) (hp : ∀ d ∈ pre, d.answered = false) (hf : ∃ d ∈ pre, FailedAt x.2 i topics d) :
    Failover topics (i :: is) b x := by
  rcases h with ⟨j, h, n, q, hj, hc, hx, ha, hq⟩ | ⟨hx, ext, hl', he, hall⟩
  · refine .inl ⟨j, h, n, pre ++ q, .tail _ hj, hc, by rw [hx, hl]; simp, ha, fun d hd => ?_⟩
    rcases List.mem_append.1 hd with hd | hd
    · exact hp d hd
    · exact hq d hd
  · refine .inr ⟨hx, pre ++ ext, by rw [hl', hl, List.append_assoc], fun d hd => ?_, fun j hj => ?_⟩
    · rcases List.mem_append.1 hd with hd | hd
      · exact hp d hd
      · exact he d hd
    · rcases List.mem_cons.1 hj with rfl | hj
      · obtain ⟨d, hd, hf⟩ := hf
        exact ⟨d, List.mem_append.2 (.inl hd), hf⟩
      · obtain ⟨d, hd, hf⟩ := hall j hj
        exact ⟨d, List.mem_append.2 (.inr hd), hf⟩

theorem metadataLoop_failover (ts : List Bytes) (is : List BrokerInfo) (b : Brokers W)
    (hk : ∀ i ∈ is, b.infos.get i.nodeID = some i) : Failover ts is b (metadataLoop net ts is b) := by
  induction is generalizing b with
  | nil => exact .inr ⟨rfl, [], by simp [metadataLoop], by simp, by simp⟩
  | cons i is ih =>
    obtain ⟨hinf, h1⟩ := getBroker_known net i.nodeID b i (hk i (.head _))
    unfold metadataLoop
    revert h1 hinf
    rcases getBroker net i.nodeID b with ⟨e0 | h, b1⟩ <;> intro hinf h1
    · rcases h1 with ⟨h, h1, -⟩ | ⟨e, e', h1, h2⟩
      · cases h1
      · exact (ih b1 (fun j hj => by rw [hinf]; exact hk j (.tail _ hj))).after _ h2 (by simp [Done.answered])
          ⟨_, .head _, .inl ⟨e', rfl⟩⟩
    · rcases h1 with ⟨h', h1, hc, h2⟩ | ⟨e, e', h1, h2⟩
      · cases h1
        have hpre : ∃ pre, b1.log = b.log ++ pre ∧ ∀ d ∈ pre, d.answered = false := by
          rcases h2 with h2 | h2
          · exact ⟨[], by simpa using h2, by simp⟩
          · exact ⟨_, h2, by simp [Done.answered]⟩
        obtain ⟨pre, hl, hp⟩ := hpre
        simp only
        have hlog : (askMetadata net h.1 ts b1).2.log = b.log ++ pre ++ [.metadata h.1 ts (askMetadata net h.1 ts b1).1] := by
          rw [← hl]; rfl
        have hcache : (askMetadata net h.1 ts b1).2.cache = b1.cache := rfl
        have hinf' : (askMetadata net h.1 ts b1).2.infos = b1.infos := rfl
        revert hlog hcache hinf'
        rcases askMetadata net h.1 ts b1 with ⟨⟨r, _ | e⟩, b2⟩ <;> intro hlog hcache hinf'
        · exact .inl ⟨i, h.1, h.2, pre, .head _, by rw [hcache]; exact hc, hlog, .inl rfl, hp⟩
        · simp only
          cases hkf : e.isKafka with
          | true => exact .inl ⟨i, h.1, h.2, pre, .head _, by simp only [if_true]; rw [hcache]; exact hc, hlog, .inr ⟨e, rfl, hkf⟩, hp⟩
          | false =>
            simp only [Bool.false_eq_true, if_false]
            have h3 := ih b2 (fun j hj => by rw [hinf', hinf]; exact hk j (.tail _ hj))
            have hg := (metadataLoop_grows net ts is b2).cache i.nodeID h (by rw [hcache]; exact hc)
            refine h3.after (pre ++ [_]) (by rw [hlog, List.append_assoc]) (fun d hd => ?_) ⟨_, List.mem_append.2 (.inr (.head _)), .inr ⟨h.1, h.2, r, e, rfl, hkf, hg⟩⟩
            rcases List.mem_append.1 hd with hd | hd
            · exact hp d hd
            · rw [List.mem_singleton.1 hd]; exact hkf
      · cases h1

/-- C34: a metadata request either returns the first answer it got, from a known node - an answer may be an error
of the cluster - or it returns `noAvaliableBrokers` after trying every known node in vain. -/
theorem C34_failover (ts : List Bytes) (b : Brokers W) (hi : InfosOk b.infos) :
    Failover ts (b.infos.map Prod.snd) b (requestMetaData net ts b) := by
  have hp := net.shuffle_perm (b.infos.map Prod.snd) b.world
  have h := metadataLoop_failover net ts (net.shuffle (b.infos.map Prod.snd) b.world).1
    { b with world := (net.shuffle (b.infos.map Prod.snd) b.world).2 }
    (fun i hi' => hi.get (hp.mem_iff.1 hi'))
  rcases h with ⟨j, h, n, q, hj, hr⟩ | ⟨hx, ext, hl', he, hall⟩
  · exact .inl ⟨j, h, n, q, hp.mem_iff.1 hj, hr⟩
  · exact .inr ⟨hx, ext, hl', he, fun i hi' => hall i (hp.mem_iff.2 hi')⟩

/-- C34: the hypothesis on the known nodes holds in every state a user can reach. -/
theorem C34_reachable (bootstrap : List Bytes) (a : Bytes) (h : Nat) (w : W) (b : Brokers W)
    (hb : fromOne net bootstrap a h w = .ok b) (ops : List BOp) (ts : List Bytes) :
    Failover ts ((runOps net ops b).infos.map Prod.snd) (runOps net ops b) (requestMetaData net ts (runOps net ops b)) :=
  C34_failover net ts _ ((runOps_grows net ops b).infos (fromOne_ok net bootstrap a h w b hb).1)

/-- The requests for offsets among what was done: broker object, topic, partitions, answer. -/
def Done.offsetsAsked : Done → Option (Nat × Bytes × List Int32 × OffsetsResponse × Option Err)
  | .offsets h t ps (r, e) => some (h, t, ps, r, e)
  | _ => none

/-- the requests for offsets made so far -/
def Brokers.asked (b : Brokers W) : List (Nat × Bytes × List Int32 × OffsetsResponse × Option Err) :=
  b.log.filterMap Done.offsetsAsked

theorem connect_asked (a : Bytes) (n : Int32) (b : Brokers W) : (Brokers.connect net a n b).2.asked = b.asked := by
  unfold Brokers.connect Brokers.asked
  rcases net.connect a n b.world with ⟨_ | h, w⟩ <;> simp [Done.offsetsAsked]

theorem askMetadata_asked (h : Nat) (ts : List Bytes) (b : Brokers W) : (askMetadata net h ts b).2.asked = b.asked := by
  simp [askMetadata, Brokers.asked, Done.offsetsAsked]

theorem refreshBootstrap_asked (as : List Bytes) (b : Brokers W) : (refreshBootstrap net as b).asked = b.asked := by
  induction as generalizing b with
  | nil => rfl
  | cons a as ih =>
    have h1 := connect_asked net a (-1) b
    unfold refreshBootstrap
    revert h1
    rcases Brokers.connect net a (-1) b with ⟨_ | h, b1⟩ <;> intro h1
    · exact (ih b1).trans h1
    · have h2 := askMetadata_asked net h [] b1
      simp only
      split
      · rw [ih]
        refine Eq.trans ?_ (h2.trans h1)
        simp [Brokers.asked, Done.offsetsAsked]
      · rw [ih]
        exact h2.trans h1

theorem refreshKnown_asked (is : List BrokerInfo) (b : Brokers W) : (refreshKnown net is b).2.asked = b.asked := by
  induction is generalizing b with
  | nil => rfl
  | cons i is ih =>
    have h1 := connect_asked net i.netAddress (-1) b
    unfold refreshKnown
    revert h1
    rcases Brokers.connect net i.netAddress (-1) b with ⟨_ | h, b1⟩ <;> intro h1
    · exact (ih b1).trans h1
    · have h2 := askMetadata_asked net h [] b1
      simp only
      split
      · rw [ih]
        exact h2.trans h1
      · exact h2.trans h1

theorem refresh_asked (b : Brokers W) : (refreshMetadata net b).2.asked = b.asked :=
  (refreshKnown_asked net _ _).trans (refreshBootstrap_asked net b.bootstrap b)

theorem getBroker_asked (n : Int32) (b : Brokers W) : (getBroker net n b).2.asked = b.asked := by
  unfold getBroker
  cases b.cache.get n with
  | some h => rfl
  | none =>
    have h1 : (createBroker net n (ensureKnown net n b)).2.asked = b.asked := by
      have h2 : (ensureKnown net n b).asked = b.asked := by
        unfold ensureKnown
        split
        · rfl
        · exact refresh_asked net b
      rw [← h2]
      generalize ensureKnown net n b = b'
      unfold createBroker
      split
      · rfl
      · rename_i i _
        have h3 := connect_asked net i.netAddress i.nodeID b'
        revert h3
        rcases Brokers.connect net i.netAddress i.nodeID b' with ⟨_ | h, b1⟩ <;> exact id
    simp only
    revert h1
    rcases createBroker net n (ensureKnown net n b) with ⟨_ | h, b1⟩ <;> exact id

theorem metadataLoop_asked (ts : List Bytes) (is : List BrokerInfo) (b : Brokers W) :
    (metadataLoop net ts is b).2.asked = b.asked := by
  induction is generalizing b with
  | nil => rfl
  | cons i is ih =>
    have h1 := getBroker_asked net i.nodeID b
    unfold metadataLoop
    revert h1
    rcases getBroker net i.nodeID b with ⟨_ | h, b1⟩ <;> intro h1
    · exact (ih b1).trans h1
    · have h2 := (askMetadata_asked net h.1 ts b1).trans h1
      simp only
      revert h2
      rcases askMetadata net h.1 ts b1 with ⟨⟨r, _ | e⟩, b2⟩ <;> intro h2
      · exact h2
      · simp only
        split
        · exact h2
        · exact (ih b2).trans h2

/-- The broker object used for node `n`. -/
def Brokers.object (b : Brokers W) (n : Int32) : Option Nat := (b.cache.get n).map Prod.fst

/-- one request per entry of `ls`, in order, up to the first failure -/
theorem offsetsLoop_asked (t : Bytes) (ls : List (Int32 × List Int32)) (acc : List OffsetsResponse) (b : Brokers W) :
    ∃ qs, (offsetsLoop net t ls acc b).2.asked = b.asked ++ qs ∧
      (∃ k, qs.map (fun q => (some q.1, q.2.1, q.2.2.1)) =
        (ls.take k).map (fun l => ((offsetsLoop net t ls acc b).2.object l.1, t, l.2)) ∧
      ∀ rs, (offsetsLoop net t ls acc b).1 = .ok rs → k = ls.length ∧
        (rs.map fun r => (r, none)) = acc.map (fun r => (r, none)) ++ qs.map (fun q => q.2.2.2)) := by
  induction ls generalizing b acc with
  | nil => exact ⟨[], by simp [offsetsLoop], 0, rfl, fun rs h => by cases h; simp⟩
  | cons l ls ih =>
    obtain ⟨l, ps⟩ := l
    have h1 := getBroker_asked net l b
    have h0 := (getBroker_spec net l b).2
    unfold offsetsLoop
    revert h1 h0
    rcases getBroker net l b with ⟨_ | h, b1⟩ <;> intro h1 h0
    · exact ⟨[], by simpa using h1, 0, rfl, fun rs h => by cases h⟩
    · have hc := h0 h rfl
      have h2 : (askOffsets net h.1 t ps b1).2.asked = b.asked ++ [(h.1, t, ps, (askOffsets net h.1 t ps b1).1)] := by
        rw [← h1]
        simp [askOffsets, Brokers.asked, Done.offsetsAsked]
      have hc2 : (askOffsets net h.1 t ps b1).2.cache.get l = some h := hc
      simp only
      revert h2 hc2
      rcases askOffsets net h.1 t ps b1 with ⟨⟨r, _ | e⟩, b2⟩ <;> intro h2 hc2
      · obtain ⟨qs, hq, k, hk, hok⟩ := ih (acc ++ [r]) b2
        have hob : (offsetsLoop net t ls (acc ++ [r]) b2).2.object l = some h.1 := by
          rw [Brokers.object, (offsetsLoop_grows net t ls (acc ++ [r]) b2).cache l h hc2]
          rfl
        refine ⟨(h.1, t, ps, r, none) :: qs, ?_, k + 1, ?_, ?_⟩
        · simp only
          rw [hq, h2, List.append_assoc]
          rfl
        · simp only [List.map_cons, List.take_succ_cons, hk, hob]
        · intro rs hrs
          obtain ⟨hk', hrs'⟩ := hok rs hrs
          exact ⟨by simp [hk'], by rw [hrs']; simp⟩
      · refine ⟨[(h.1, t, ps, r, some e)], h2, 1, ?_, fun rs h => by cases h⟩
        simp [Brokers.object, hc2]

/-- What `byLeader` should be: each leader once, with exactly its partitions, in order. -/
structure GroupsByLeader (ps : List PartitionMetadataInfo) (ls : List (Int32 × List Int32)) : Prop where
  once : (ls.map Prod.fst).Nodup
  own : ∀ l ∈ ls, l.2 = (ps.filter (fun p => p.leader = l.1)).map (fun p => p.partitionID)
  all : ∀ p ∈ ps, p.leader ∈ ls.map Prod.fst
  only : ∀ l ∈ ls, l.2 ≠ []
  perm : (ls.flatMap Prod.snd).Perm (ps.map fun p => p.partitionID)

theorem flatMap_set_perm (m : AMap Int32 (List Int32)) (k x : Int32) :
    ((m.set k ((m.get k).getD [] ++ [x])).flatMap Prod.snd).Perm (m.flatMap Prod.snd ++ [x]) := by
  induction m with
  | nil => simp [AMap.set, AMap.get]
  | cons e m ih =>
    obtain ⟨k', v⟩ := e
    rw [AMap.get_cons]
    by_cases h : k' = k
    · subst h
      simp only [AMap.set, if_true, Option.getD_some, List.flatMap_cons, List.append_assoc]
      exact List.Perm.append_left _ List.perm_append_comm
    · simp only [AMap.set, h, Ne.symm h, if_false, List.flatMap_cons, List.append_assoc]
      exact List.Perm.append_left _ ih

/-- one step of the loop of brokers.go:279-282 -/
theorem GroupsByLeader.step {done : List PartitionMetadataInfo} {m : AMap Int32 (List Int32)}
    (h : GroupsByLeader done m) (x : PartitionMetadataInfo) :
    GroupsByLeader (done ++ [x]) (AMap.set m x.leader ((AMap.get m x.leader).getD [] ++ [x.partitionID])) := by
  have hget : ∀ l, (AMap.get m l).getD [] = (done.filter (fun p => p.leader = l)).map (fun p => p.partitionID) := by
    intro l
    cases hg : AMap.get m l with
    | some v => exact h.own (l, v) (AMap.mem_of_get_eq_some _ _ _ hg)
    | none =>
      have : done.filter (fun p => p.leader = l) = [] := by
        rw [List.filter_eq_nil_iff]
        intro p hp hl
        have := h.all p hp
        simp only [decide_eq_true_eq] at hl
        rw [hl] at this
        exact (AMap.get_eq_none_iff _ _).1 hg this
      simp [this]
  have hnd := AMap.nodup_keys_set m x.leader ((AMap.get m x.leader).getD [] ++ [x.partitionID]) h.once
  have hmem : ∀ l ∈ AMap.set m x.leader ((AMap.get m x.leader).getD [] ++ [x.partitionID]),
      (l.1 = x.leader ∧ l.2 = (AMap.get m x.leader).getD [] ++ [x.partitionID]) ∨ (l.1 ≠ x.leader ∧ l ∈ m) := by
    intro l hl
    have hl' := AMap.get_eq_some_of_mem _ hnd l.1 l.2 hl
    rw [AMap.get_set] at hl'
    split at hl'
    · rename_i he
      exact .inl ⟨he, (Option.some.inj hl').symm⟩
    · rename_i he
      exact .inr ⟨he, AMap.mem_of_get_eq_some _ _ _ hl'⟩
  refine ⟨hnd, fun l hl => ?_, fun p hp => ?_, fun l hl => ?_, ?_⟩
  · rcases hmem l hl with ⟨h1, h2⟩ | ⟨h1, h2⟩
    · rw [h2, hget, h1]
      simp
    · rw [h.own l h2]
      simp [Ne.symm h1]
  · change p.leader ∈ AMap.keys _
    rw [AMap.keys_set]
    rcases List.mem_append.1 hp with hp | hp
    · have := h.all p hp
      split
      · exact this
      · exact List.mem_append.2 (.inl this)
    · rw [List.mem_singleton.1 hp]
      split
      · assumption
      · simp
  · rcases hmem l hl with ⟨-, h2⟩ | ⟨-, h2⟩
    · rw [h2]; simp
    · exact h.only l h2
  · refine (flatMap_set_perm m x.leader x.partitionID).trans ?_
    rw [List.map_append]
    exact h.perm.append_right _

theorem byLeader_groups (ps : List PartitionMetadataInfo) : GroupsByLeader ps (byLeader ps) := by
  have key : ∀ (qs done : List PartitionMetadataInfo) (m : AMap Int32 (List Int32)), GroupsByLeader done m →
      GroupsByLeader (done ++ qs) (qs.foldl (fun (m : AMap Int32 (List Int32)) x =>
        AMap.set m x.leader ((AMap.get m x.leader).getD [] ++ [x.partitionID])) m) := by
    intro qs
    induction qs with
    | nil => intro done m h; simpa using h
    | cons x qs ih =>
      intro done m h
      have := ih (done ++ [x]) _ (h.step x)
      simpa using this
  exact key ps [] [] ⟨by simp, by simp, by simp, by simp, by simp⟩

theorem GroupsByLeader.perm_left {ps : List PartitionMetadataInfo} {ls ls' : List (Int32 × List Int32)}
    (h : GroupsByLeader ps ls) (hp : ls'.Perm ls) : GroupsByLeader ps ls' :=
  ⟨(hp.map _).nodup_iff.2 h.once, fun l hl => h.own l (hp.mem_iff.1 hl), fun p hp' => (hp.map _).mem_iff.2 (h.all p hp'),
    fun l hl => h.only l (hp.mem_iff.1 hl), (hp.flatMap_right _).trans h.perm⟩

/-- C35: asking for the offsets of all partitions of a topic whose metadata is `t` sends at most one request per
leader, to the broker kept for that leader, holding exactly the partitions it leads; and if the result is not an
error, exactly one, the result being the answers. -/
theorem C35_each_leader_once (topic : Bytes) (pid : Int32) (hpid : pid < 0) (b b1 : Brokers W) (r : MetadataResponse)
    (t : TopicMetadata) (rest : List TopicMetadata) (hm : requestMetaData net [topic] b = ((r, none), b1))
    (ht : r.topics = t :: rest) :
    ∃ ls qs, GroupsByLeader t.partitions ls ∧
      (requestOffsets net topic pid b).2.asked = b.asked ++ qs ∧
      (∃ k, qs.map (fun q => (some q.1, q.2.1, q.2.2.1)) =
        (ls.take k).map (fun l => ((requestOffsets net topic pid b).2.object l.1, topic, l.2)) ∧
      ∀ rs, (requestOffsets net topic pid b).1 = .ok rs → k = ls.length ∧
        (rs.map fun r => (r, none)) = qs.map (fun q => q.2.2.2)) := by
  have hb1 : b1.asked = b.asked := by
    have := metadataLoop_asked net [topic] (order net (b.infos.map Prod.snd) b).1 (order net (b.infos.map Prod.snd) b).2
    have h2 : (requestMetaData net [topic] b).2.asked = b.asked := this
    rw [hm] at h2
    exact h2
  unfold requestOffsets
  rw [hm]
  simp only [ht]
  have hn : ¬ pid ≥ 0 := by
    rw [ge_iff_le, Int32.le_iff_toInt_le]
    have := Int32.lt_iff_toInt_lt.1 hpid
    omega
  simp only [hn, if_false]
  obtain ⟨qs, h1, k, h2, h3⟩ := offsetsLoop_asked net topic (order net (byLeader t.partitions) b1).1 []
    (order net (byLeader t.partitions) b1).2
  refine ⟨(order net (byLeader t.partitions) b1).1, qs, (byLeader_groups t.partitions).perm_left (net.shuffle_perm _ _), ?_, k, h2, ?_⟩
  · rw [← hb1]
    exact h1
  · intro rs hrs
    have := h3 rs ?_
    · simpa using this
    · revert hrs
      generalize (offsetsLoop net topic (order net (byLeader t.partitions) b1).1 [] (order net (byLeader t.partitions) b1).2).1 = o
      cases o with
      | ok a => intro h; cases h; rfl
      | error e => intro h; cases h

/-- C35: asking for the offsets of one partition of a topic whose metadata is `t` sends at most one request: for that partition, to the
broker kept for its leader; the result is the answer.  If the partition is not in the metadata, it fails without a request. -/
theorem C35_one_partition (topic : Bytes) (pid : Int32) (hpid : pid ≥ 0) (b b1 : Brokers W) (r : MetadataResponse)
    (t : TopicMetadata) (rest : List TopicMetadata) (hm : requestMetaData net [topic] b = ((r, none), b1))
    (ht : r.topics = t :: rest) (hnd : (t.partitions.map fun p => p.partitionID).Nodup) :
    (∀ p ∈ t.partitions, p.partitionID = pid →
      ((requestOffsets net topic pid b).2.asked = b.asked ∧ ∃ e, (requestOffsets net topic pid b).1 = .err e) ∨
      ∃ h a, (requestOffsets net topic pid b).2.object p.leader = some h ∧
        (requestOffsets net topic pid b).2.asked = b.asked ++ [(h, topic, [pid], a)] ∧
        (requestOffsets net topic pid b).1 = match a with | (o, none) => .ok [o] | (_, some e) => .err e) ∧
    ((∀ p ∈ t.partitions, p.partitionID ≠ pid) →
      (requestOffsets net topic pid b).2.asked = b.asked ∧ ∃ e, (requestOffsets net topic pid b).1 = .err e) := by
  have hb1 : b1.asked = b.asked := by
    have := metadataLoop_asked net [topic] (order net (b.infos.map Prod.snd) b).1 (order net (b.infos.map Prod.snd) b).2
    have h2 : (requestMetaData net [topic] b).2.asked = b.asked := this
    rw [hm] at h2
    exact h2
  unfold requestOffsets
  rw [hm]
  simp only [ht, hpid, if_true]
  constructor
  · intro p hp hpp
    have hf : t.partitions.find? (fun x => x.partitionID = pid) = some p := by
      rcases h : t.partitions.find? (fun x => x.partitionID = pid) with _ | q
      · have := List.find?_eq_none.1 h p hp
        simp [hpp] at this
      · have hq := List.mem_of_find?_eq_some h
        have hqp := List.find?_some h
        simp only [decide_eq_true_eq] at hqp
        rw [← hpp] at hqp
        have := List.inj_on_of_nodup_map hnd hq hp hqp
        rw [h, this]
    unfold offsetsOfPartition
    simp only [hf]
    have h1 := getBroker_asked net p.leader b1
    have h0 := (getBroker_spec net p.leader b1).2
    revert h1 h0
    rcases getBroker net p.leader b1 with ⟨_ | h, b2⟩ <;> intro h1 h0
    · exact .inl ⟨h1.trans hb1, _, rfl⟩
    · have hc := h0 h rfl
      have h2 : (askOffsets net h.1 topic [pid] b2).2.asked = b.asked ++ [(h.1, topic, [pid], (askOffsets net h.1 topic [pid] b2).1)] := by
        rw [← hb1, ← h1]
        simp [askOffsets, Brokers.asked, Done.offsetsAsked]
      have hc2 : (askOffsets net h.1 topic [pid] b2).2.cache.get p.leader = some h := hc
      simp only
      revert h2 hc2
      rcases askOffsets net h.1 topic [pid] b2 with ⟨⟨o, _ | e⟩, b3⟩ <;> intro h2 hc2
      · exact .inr ⟨h.1, (o, none), by simp [Brokers.object, hc2], h2, rfl⟩
      · exact .inr ⟨h.1, (o, some e), by simp [Brokers.object, hc2], h2, rfl⟩
  · intro hno
    have hf : t.partitions.find? (fun x => x.partitionID = pid) = none := by
      apply List.find?_eq_none.2
      intro x hx
      simpa using hno x hx
    unfold offsetsOfPartition
    simp only [hf]
    exact ⟨hb1, _, rfl⟩

end Healer
