import Verif.Model.Close
import Verif.Props.Brokers2

/-!
# C134: closing a client
-/

namespace Healer

open Brokers

variable {W : Type}

/-! ## Connections made for nodes are kept in the cache -/

/-- A step which makes no connection for a node (node id -1 is that of connections made to look at the metadata) and leaves
the cache alone. -/
structure Tidy (b b' : Brokers W) : Prop where
  looks : Looks b b'
  made : ∀ a n h, .connected a n h ∈ b'.log → n ≠ -1 → .connected a n h ∈ b.log

/-- What all operations but `NewBroker` leave true: a connection made for a node is in the cache. -/
structure Cached (b b' : Brokers W) : Prop where
  grows : Grows b b'
  made : ∀ a n h, .connected a n h ∈ b'.log → n ≠ -1 → .connected a n h ∈ b.log ∨ ∃ k, b'.cache.get k = some (h, n)

theorem Tidy.refl (b : Brokers W) : Tidy b b := ⟨.refl b, fun _ _ _ h _ => h⟩

theorem Tidy.trans {b b' b'' : Brokers W} (h : Tidy b b') (h' : Tidy b' b'') : Tidy b b'' :=
  ⟨h.looks.trans h'.looks, fun a n k hk hn => h.made a n k (h'.made a n k hk hn) hn⟩

theorem Tidy.cached {b b' : Brokers W} (h : Tidy b b') : Cached b b' :=
  ⟨h.looks.grows, fun a n k hk hn => .inl (h.made a n k hk hn)⟩

theorem Cached.refl (b : Brokers W) : Cached b b := (Tidy.refl b).cached

theorem Cached.trans {b b' b'' : Brokers W} (h : Cached b b') (h' : Cached b' b'') : Cached b b'' := by
  refine ⟨h.grows.trans h'.grows, fun a n k hk hn => ?_⟩
  rcases h'.made a n k hk hn with h1 | h1
  · rcases h.made a n k h1 hn with h2 | ⟨m, hm⟩
    · exact .inl h2
    · exact .inr ⟨m, h'.grows.cache m _ hm⟩
  · exact .inr h1

variable (net : Net W)

theorem connect_tidy (a : Bytes) (b : Brokers W) : Tidy b (Brokers.connect net a (-1) b).2 := by
  refine ⟨connect_looks net a (-1) b, fun a' n h hm hn => ?_⟩
  obtain ⟨d, h1, -, -, hd⟩ := connect_quiet net a (-1) b
  rw [h1] at hm
  rcases List.mem_append.1 hm with h2 | h2
  · exact h2
  · rw [List.mem_singleton] at h2
    rcases hd with ⟨k, -, rfl⟩ | ⟨e, -, rfl⟩
    · injection h2 with _ h3; exact absurd h3 hn
    · cases h2

theorem tidy_of_append {b b' : Brokers W} (h : Looks b b') (ds : List Done) (hl : b'.log = b.log ++ ds)
    (hd : ∀ a n k, Done.connected a n k ∉ ds) : Tidy b b' := by
  refine ⟨h, fun a n k hk _ => ?_⟩
  rw [hl] at hk
  exact (List.mem_append.1 hk).resolve_right (hd a n k)

theorem askMetadata_tidy (h : Nat) (ts : List Bytes) (b : Brokers W) : Tidy b (askMetadata net h ts b).2 :=
  tidy_of_append (askMetadata_looks net h ts b) _ rfl (by simp)

theorem askOffsets_tidy (h : Nat) (t : Bytes) (ps : List Int32) (b : Brokers W) : Tidy b (askOffsets net h t ps b).2 :=
  tidy_of_append (askOffsets_looks net h t ps b) _ rfl (by simp)

theorem askCoordinator_tidy (h : Nat) (g : Bytes) (b : Brokers W) : Tidy b (askCoordinator net h g b).2 :=
  tidy_of_append (askCoordinator_looks net h g b) _ rfl (by simp)

theorem askListGroups_tidy (h : Nat) (b : Brokers W) : Tidy b (askListGroups net h b).2 :=
  tidy_of_append (askListGroups_looks net h b) _ rfl (by simp)

theorem order_tidy {α : Type} (l : List α) (b : Brokers W) : Tidy b (order net l b).2 :=
  tidy_of_append (order_looks net l b) [] (by simp [order]) (by simp)

theorem setInfos_tidy (b : Brokers W) (bs : List BrokerInfo) : Tidy b { b with infos := infosOf bs } :=
  tidy_of_append (setInfos_looks b bs) [] (by simp) (by simp)

theorem closed_tidy (b : Brokers W) (h : Nat) : Tidy b { b with log := b.log ++ [.closed h] } :=
  tidy_of_append (log_looks b _) _ rfl (by simp)

theorem refreshBootstrap_tidy (as : List Bytes) (b : Brokers W) : Tidy b (refreshBootstrap net as b) := by
  induction as generalizing b with
  | nil => exact .refl b
  | cons a as ih =>
    have h1 := connect_tidy net a b
    unfold refreshBootstrap
    revert h1
    rcases Brokers.connect net a (-1) b with ⟨_ | h, b1⟩ <;> intro h1
    · exact h1.trans (ih b1)
    · have h2 := h1.trans (askMetadata_tidy net h [] b1)
      simp only
      split
      · exact h2.trans (Tidy.trans (closed_tidy (askMetadata net h [] b1).2 _) (ih _))
      · exact h2.trans ((setInfos_tidy _ _).trans (ih _))

theorem refreshKnown_tidy (is : List BrokerInfo) (b : Brokers W) : Tidy b (refreshKnown net is b).2 := by
  induction is generalizing b with
  | nil => exact .refl b
  | cons i is ih =>
    have h1 := connect_tidy net i.netAddress b
    unfold refreshKnown
    revert h1
    rcases Brokers.connect net i.netAddress (-1) b with ⟨_ | h, b1⟩ <;> intro h1
    · exact h1.trans (ih b1)
    · have h2 := h1.trans (askMetadata_tidy net h [] b1)
      simp only
      split
      · exact h2.trans (ih _)
      · exact h2.trans (setInfos_tidy _ _)

theorem refresh_tidy (b : Brokers W) : Tidy b (refreshMetadata net b).2 :=
  (refreshBootstrap_tidy net b.bootstrap b).trans ((order_tidy net _ _).trans (refreshKnown_tidy net _ _))

theorem ensureKnown_tidy (n : Int32) (b : Brokers W) : Tidy b (ensureKnown net n b) := by
  unfold ensureKnown
  split
  · exact .refl b
  · exact refresh_tidy net b

theorem getBroker_cached (n : Int32) (b : Brokers W) : Cached b (getBroker net n b).2 := by
  refine ⟨getBroker_grows net n b, fun a m k hk hm => ?_⟩
  unfold getBroker at hk ⊢
  cases hc : b.cache.get n with
  | some h => rw [hc] at hk; exact .inl hk
  | none =>
    rw [hc] at hk
    simp only at hk ⊢
    have h1 := ensureKnown_tidy net n b
    revert hk h1
    generalize ensureKnown net n b = b0
    intro hk h1
    unfold createBroker at hk ⊢
    rcases hi : b0.infos.get n with _ | i
    · rw [hi] at hk
      exact .inl (h1.made a m k hk hm)
    · rw [hi] at hk
      simp only at hk ⊢
      obtain ⟨d, h2, -, -, hd⟩ := connect_quiet net i.netAddress i.nodeID b0
      revert hk h2 hd
      rcases Brokers.connect net i.netAddress i.nodeID b0 with ⟨e | h, b1⟩ <;> intro hk h2 hd
      · simp only at hk h2 hd
        rw [h2] at hk
        rcases List.mem_append.1 hk with h3 | h3
        · exact .inl (h1.made a m k h3 hm)
        · rcases hd with ⟨_, hd, -⟩ | ⟨_, -, rfl⟩
          · cases hd
          · cases List.mem_singleton.1 h3
      · simp only at hk h2 hd
        rw [h2] at hk
        rcases List.mem_append.1 hk with h3 | h3
        · exact .inl (h1.made a m k h3 hm)
        · rcases hd with ⟨_, hd, rfl⟩ | ⟨_, hd, -⟩
          · cases hd
            cases List.mem_singleton.1 h3
            exact .inr ⟨n, by simp only [AMap.get_set, if_pos]⟩
          · cases hd

theorem metadataLoop_cached (ts : List Bytes) (is : List BrokerInfo) (b : Brokers W) : Cached b (metadataLoop net ts is b).2 := by
  induction is generalizing b with
  | nil => exact .refl b
  | cons i is ih =>
    have h1 := getBroker_cached net i.nodeID b
    unfold metadataLoop
    revert h1
    rcases getBroker net i.nodeID b with ⟨_ | h, b1⟩ <;> intro h1
    · exact h1.trans (ih b1)
    · have h2 := h1.trans (askMetadata_tidy net h.1 ts b1).cached
      simp only
      revert h2
      rcases askMetadata net h.1 ts b1 with ⟨⟨r, _ | e⟩, b2⟩ <;> intro h2
      · exact h2
      · simp only
        split
        · exact h2
        · exact h2.trans (ih b2)

theorem requestMetaData_cached (ts : List Bytes) (b : Brokers W) : Cached b (requestMetaData net ts b).2 :=
  (order_tidy net _ b).cached.trans (metadataLoop_cached net ts _ _)

theorem offsetsLoop_cached (t : Bytes) (ls : List (Int32 × List Int32)) (acc : List OffsetsResponse) (b : Brokers W) :
    Cached b (offsetsLoop net t ls acc b).2 := by
  induction ls generalizing b acc with
  | nil => exact .refl b
  | cons l ls ih =>
    obtain ⟨l, ps⟩ := l
    have h1 := getBroker_cached net l b
    unfold offsetsLoop
    revert h1
    rcases getBroker net l b with ⟨_ | h, b1⟩ <;> intro h1
    · exact h1
    · have h2 := h1.trans (askOffsets_tidy net h.1 t ps b1).cached
      simp only
      revert h2
      rcases askOffsets net h.1 t ps b1 with ⟨⟨r, _ | e⟩, b2⟩ <;> intro h2
      · exact h2.trans (ih _ b2)
      · exact h2

theorem offsetsOfPartition_cached (t : Bytes) (p : Int32) (ps : List PartitionMetadataInfo) (b : Brokers W) :
    Cached b (offsetsOfPartition net t p ps b).2 := by
  unfold offsetsOfPartition
  split
  · exact .refl b
  · rename_i x _
    have h1 := getBroker_cached net x.leader b
    revert h1
    rcases getBroker net x.leader b with ⟨_ | h, b1⟩ <;> intro h1
    · exact h1
    · have h2 := h1.trans (askOffsets_tidy net h.1 t [p] b1).cached
      simp only
      revert h2
      rcases askOffsets net h.1 t [p] b1 with ⟨⟨r, _ | e⟩, b2⟩ <;> intro h2 <;> exact h2

theorem requestOffsets_cached (t : Bytes) (p : Int32) (b : Brokers W) : Cached b (requestOffsets net t p b).2 := by
  have h1 := requestMetaData_cached net [t] b
  unfold requestOffsets
  revert h1
  rcases requestMetaData net [t] b with ⟨⟨r, _ | e⟩, b1⟩ <;> intro h1
  · simp only
    cases r.topics with
    | nil => exact h1
    | cons t' _ =>
      simp only
      split
      · exact h1.trans (offsetsOfPartition_cached net t p _ b1)
      · exact h1.trans ((order_tidy net _ b1).cached.trans (offsetsLoop_cached net t _ [] _))
  · exact h1

theorem findLeader_cached (t : Bytes) (p : Int32) (b : Brokers W) : Cached b (findLeader net t p b).2 := by
  have h1 := requestMetaData_cached net [t] b
  unfold findLeader
  revert h1
  rcases requestMetaData net [t] b with ⟨⟨r, _ | e⟩, b1⟩ <;> intro h1 <;> simp only
  · cases r.topics with
    | nil => exact h1
    | cons t' _ => simp only; cases t'.partitions.find? _ <;> exact h1
  · split
    · cases r.topics with
      | nil => exact h1
      | cons t' _ => simp only; cases t'.partitions.find? _ <;> exact h1
    · exact h1

theorem coordinatorLoop_cached (g : Bytes) (is : List BrokerInfo) (b : Brokers W) :
    Cached b (coordinatorLoop net g is b).2 := by
  induction is generalizing b with
  | nil => exact .refl b
  | cons i is ih =>
    have h1 := getBroker_cached net i.nodeID b
    unfold coordinatorLoop
    revert h1
    rcases getBroker net i.nodeID b with ⟨_ | h, b1⟩ <;> intro h1
    · exact h1.trans (ih b1)
    · have h2 := h1.trans (askCoordinator_tidy net h.1 g b1).cached
      simp only
      revert h2
      rcases askCoordinator net h.1 g b1 with ⟨⟨r, _ | e⟩, b2⟩ <;> intro h2
      · exact h2
      · exact h2.trans (ih b2)

theorem findCoordinator_cached (g : Bytes) (b : Brokers W) : Cached b (findCoordinator net g b).2 :=
  (order_tidy net (b.infos.map Prod.snd) b).cached.trans (coordinatorLoop_cached net g _ _)

theorem listGroupsLoop_cached (is : List BrokerInfo) (acc : AMap Int32 (List ListedGroup)) (b : Brokers W) :
    Cached b (listGroupsLoop net is acc b).2 := by
  induction is generalizing b acc with
  | nil => exact .refl b
  | cons i is ih =>
    have h1 := getBroker_cached net i.nodeID b
    unfold listGroupsLoop
    revert h1
    rcases getBroker net i.nodeID b with ⟨_ | h, b1⟩ <;> intro h1
    · exact h1
    · have h2 := h1.trans (askListGroups_tidy net h.1 b1).cached
      simp only
      revert h2
      rcases askListGroups net h.1 b1 with ⟨⟨_ | r, _ | e⟩, b2⟩ <;> intro h2
      · exact h2
      · exact h2
      · exact h2.trans (ih _ b2)
      · exact h2

theorem listGroups_cached (b : Brokers W) : Cached b (listGroups net b).2 :=
  (order_tidy net (b.infos.map Prod.snd) b).cached.trans (listGroupsLoop_cached net _ _ _)

/-- All operations but `NewBroker`, whose result belongs to the caller. -/
theorem runOps_cached (ops : List BOp) (hops : ∀ n, .new n ∉ ops) (b : Brokers W) : Cached b (runOps net ops b) := by
  induction ops generalizing b with
  | nil => exact .refl b
  | cons o ops ih =>
    refine Cached.trans (b' := o.run net b) ?_ (ih (fun n h => hops n (.tail _ h)) _)
    cases o with
    | get n => exact getBroker_cached net n b
    | new n => exact absurd (.head _) (hops n)
    | refresh => exact (refresh_tidy net b).cached
    | metadata ts => exact requestMetaData_cached net ts b
    | offsets t p => exact requestOffsets_cached net t p b
    | leader t p => exact findLeader_cached net t p b
    | coordinator g => exact findCoordinator_cached net g b
    | listGroups => exact listGroups_cached net b

/-- What is in the log and the cache of the brokers made from a bootstrap connection. -/
theorem fromOne_start (bootstrap : List Bytes) (a : Bytes) (h : Nat) (w : W) (b : Brokers W)
    (hb : fromOne net bootstrap a h w = .ok b) :
    (∀ x n k, Done.connected x n k ∉ b.log) ∧
      ((∃ r : MetadataResponse, net.metadata h [] w = ((r, none), (net.metadata h [] w).2) ∧ ∃ i ∈ r.brokers, i.netAddress = a) →
        ∃ k, b.cache.get k = some (h, -1)) := by
  have key : ∀ (bs : List BrokerInfo) (b : Brokers W), (bs.foldl (fun (b : Brokers W) i =>
      { b with infos := b.infos.set i.nodeID i
               cache := if a = i.netAddress then b.cache.set i.nodeID (h, -1) else b.cache }) b).log = b.log ∧
      (((∃ i ∈ bs, i.netAddress = a) ∨ ∃ k, b.cache.get k = some (h, -1)) → ∃ k, (bs.foldl (fun (b : Brokers W) i =>
      { b with infos := b.infos.set i.nodeID i
               cache := if a = i.netAddress then b.cache.set i.nodeID (h, -1) else b.cache }) b).cache.get k = some (h, -1)) := by
    intro bs
    induction bs with
    | nil => exact fun b => ⟨rfl, fun hx => hx.resolve_left (by simp)⟩
    | cons i bs ih =>
      intro b
      refine ⟨(ih _).1, fun hx => (ih _).2 ?_⟩
      by_cases hi : a = i.netAddress
      · refine .inr ⟨i.nodeID, ?_⟩
        simp only [hi, if_true, AMap.get_set]
      · rcases hx with ⟨j, hj, hja⟩ | ⟨k, hk⟩
        · rcases List.mem_cons.1 hj with rfl | hj
          · exact absurd hja.symm hi
          · exact .inl ⟨j, hj, hja⟩
        · exact .inr ⟨k, by simp only [if_neg hi]; exact hk⟩
  unfold fromOne at hb
  simp only [askMetadata] at hb
  rcases hm : net.metadata h [] w with ⟨⟨r, _ | e⟩, w'⟩
  · rw [hm] at hb
    simp only at hb
    split at hb
    · cases hb
    · cases hb
      refine ⟨fun x n k hk => ?_, fun ⟨r', hr, hx⟩ => (key _ _).2 (.inl ?_)⟩
      · rw [(key _ _).1] at hk
        simp at hk
      · have : r = r' := by simpa using congrArg (fun z => z.1.1) hr
        exact this ▸ hx
  · rw [hm] at hb
    cases hb

/-- C134, used alone (missing for the full statement: connections made only to look at the metadata, closing twice, and
closing during a request, see below).  After any look-ups and requests, `Close` succeeds and closes every connection which
was made for a node of the cluster, and the one through which the client was made if its address is one of those the cluster
gives.  What it closes are connections the client has. -/
theorem C134_close_partial (bootstrap : List Bytes) (a : Bytes) (h : Nat) (w : W) (b : Brokers W)
    (hb : fromOne net bootstrap a h w = .ok b) (ops : List BOp) (hops : ∀ n, .new n ∉ ops) :
    ∃ (c : Closable W) (ext : List Done), Closable.close net ⟨runOps net ops b, false⟩ = .ok c ∧
      c.brokers.log = (runOps net ops b).log ++ ext ∧
      (∀ x n k, .connected x n k ∈ (runOps net ops b).log → n ≠ -1 → .closed k ∈ ext) ∧
      ((∃ r : MetadataResponse, net.metadata h [] w = ((r, none), (net.metadata h [] w).2) ∧ ∃ i ∈ r.brokers, i.netAddress = a) →
        .closed h ∈ ext) ∧
      ∀ d ∈ ext, ∃ m k n, d = .closed k ∧ (runOps net ops b).cache.get m = some (k, n) := by
  obtain ⟨hlog, hboot⟩ := fromOne_start net bootstrap a h w b hb
  have hc := runOps_cached net ops hops b
  have hn := (runOps_grows net ops b).nodup (fromOne_ok net bootstrap a h w b hb).2
  revert hc hn
  have hg := (runOps_grows net ops b).cache
  revert hg
  generalize runOps net ops b = b'
  intro hg hc hn
  have hp := net.shuffle_perm (b'.cache.map fun e => e.2.1) b'.world
  have hin : ∀ k m n, b'.cache.get m = some (k, n) → Done.closed k ∈
      ((net.shuffle (b'.cache.map fun e => e.2.1) b'.world).1.map Done.closed) := by
    intro k m n hk
    refine List.mem_map_of_mem (hp.mem_iff.2 (List.mem_map.2 ⟨(m, (k, n)), AMap.mem_of_get_eq_some _ _ _ hk, rfl⟩))
  refine ⟨_, _, rfl, rfl, fun x n k hk hne => ?_, fun hx => ?_, fun d hd => ?_⟩
  · rcases hc.made x n k hk hne with h1 | ⟨m, h1⟩
    · exact absurd h1 (hlog x n k)
    · exact hin k m n h1
  · obtain ⟨m, hm⟩ := hboot hx
    exact hin h m _ (hg m _ hm)
  · obtain ⟨k, hk, rfl⟩ := List.mem_map.1 hd
    obtain ⟨⟨m, k', n⟩, he, rfl⟩ := List.mem_map.1 (hp.mem_iff.1 hk)
    exact ⟨m, k', n, rfl, AMap.get_eq_some_of_mem _ hn _ _ he⟩

/-- Looking up the other node and listing the groups: connection 1 is made, and both are closed. -/
example : (Closable.close goodNet ⟨runOps goodNet [.get 2, .listGroups] (demoBrokers goodNet), false⟩).okAnd
    (fun c => decide ((c.brokers.log.filterMap fun | .connected _ n k => some ("made", k, n) | .closed k => some ("closed", k, 0) | _ => none) =
      [("made", 1, 2), ("closed", 1, 0), ("closed", 0, 0)])) = true := by decide +kernel

/-- C134 fails: the second `Close` of a client always crashes. -/
theorem C134_violated_twice (c c' : Closable W) (h : Closable.close net c = .ok c') : Closable.close net c' = .panic := by
  unfold Closable.close at h
  split at h
  · cases h
  · cases h; rfl

/-- C134 fails: a client made through an address which the cluster does not list (an alias, a load balancer) never closes
the connection it was made through. -/
theorem C134_violated_bootstrap : ∃ (net : Net Nat) (b : Brokers Nat) (c : Closable Nat), fromOne net [[122, 58, 49]] [122, 58, 49] 0 0 = .ok b ∧
    Closable.close net ⟨b, false⟩ = .ok c ∧ ∀ k, Done.closed k ∉ c.brokers.log := by
  refine ⟨goodNet, _, _, rfl, rfl, fun k hk => ?_⟩
  simp [goodNet, demoNet, demoMeta, demoInfo, BrokerInfo.netAddress] at hk

/-! ## Close and requests -/

/-- A request under way has its connection. -/
theorem Shared.step_conn {timed : Bool} {a : ShareAct} {s s' : Shared} (h : s.step timed a = some s')
    (hc : s.req = .crashed ∨ (s.req ≠ .idle → s.conn.isSome = true)) (hcr : s.req ≠ .crashed)
    (ha : a = .close → s.req = .idle) :
    s'.req ≠ .crashed ∧ (s'.req ≠ .idle → s'.conn.isSome = true) := by
  have hc := hc.resolve_left hcr
  obtain ⟨conn, req, o, cl⟩ := s
  cases a with
  | close =>
    have hi : req = .idle := ha rfl
    subst hi
    cases h
    cases conn <;> simp [Shared.shut]
  | begin d =>
    cases req <;> try cases h
    cases conn with
    | some c => cases h; simp
    | none =>
      cases d with
      | none => cases h; simp
      | some c => cases h; simp
  | go =>
    cases req <;> try cases h
    all_goals
      have hs := hc (by simp)
      cases conn with
      | none => cases hs
      | some c => cases timed <;> simp [Shared.use]
  | writeFailed drop =>
    cases req <;> try cases h
    have hs := hc (by simp)
    cases conn with
    | none => cases hs
    | some c => cases drop <;> simp [Shared.fail, Shared.shut]
  | more =>
    cases req <;> try cases h
    have hs := hc (by simp)
    cases timed <;> simpa using hs
  | last => cases req <;> try cases h
            simp
  | readFailed drop =>
    cases req <;> try cases h
    cases conn <;> cases drop <;> simp [Shared.fail, Shared.shut]

/-- C134 for brokers shared between goroutines (missing for the full statement: `Close` during a request): requests on a
broker which is closed only between requests, any number of times, never crash. -/
theorem C134_between_requests_partial (timed : Bool) (as : List ShareAct) (conn : Option Nat) (s : Shared)
    (hr : Shared.run timed as { conn := conn } = some s)
    (hclose : ∀ pre post s', as = pre ++ .close :: post → Shared.run timed pre { conn := conn } = some s' → s'.req = .idle) :
    s.req ≠ .crashed := by
  have key : ∀ (as pre : List ShareAct) (s0 : Shared), Shared.run timed pre { conn := conn } = some s0 →
      (s0.req ≠ .crashed ∧ (s0.req ≠ .idle → s0.conn.isSome = true)) → Shared.run timed as s0 = some s →
      (∀ p q s', pre ++ as = p ++ .close :: q → Shared.run timed p { conn := conn } = some s' → s'.req = .idle) →
      s.req ≠ .crashed := by
    intro as
    induction as with
    | nil => intro pre s0 _ h2 h3 _; cases h3; exact h2.1
    | cons a as ih =>
      intro pre s0 h1 h2 h3 h4
      unfold Shared.run at h3
      rcases ha : s0.step timed a with _ | s1
      · rw [ha] at h3; cases h3
      · rw [ha] at h3
        have hrun : ∀ (p : List ShareAct) (x : Shared), Shared.run timed p x = some s0 →
            Shared.run timed (p ++ [a]) x = some s1 := by
          intro p
          induction p with
          | nil => intro x hx; cases hx; simp [Shared.run, ha]
          | cons y p ihp =>
            intro x hx
            unfold Shared.run at hx
            rcases hy : x.step timed y with _ | x1
            · rw [hy] at hx; cases hx
            · rw [hy] at hx
              rw [List.cons_append, Shared.run, hy]
              exact ihp x1 hx
        refine ih (pre ++ [a]) s1 (hrun pre _ h1) (Shared.step_conn ha (.inr h2.2) h2.1 ?_) h3 ?_
        · rintro rfl
          exact h4 pre as s0 rfl h1
        · intro p q s' hpq
          rw [List.append_assoc] at hpq
          exact h4 p q s' hpq
  exact key as [] _ rfl (by simp) hr (by simpa using hclose)

/-- Two requests, closed in between and afterwards. -/
example : Shared.run true [.begin (some 1), .go, .go, .go, .go, .go, .more, .go, .go, .last, .close, .begin (some 2), .go, .go, .go, .go, .go,
    .readFailed true, .close] { conn := none } = some { conn := none, req := .idle, opened := [1, 2], closed := [1, 2] } := by decide

/-- C134 fails: wherever a request stands before its last read, `Close` in another goroutine at that point makes it crash; and
each of these points is reached. -/
theorem C134_violated_during_request :
    (∀ (s : Shared), s.req ∈ [.localAddr, .remoteAddr, .write, .deadline, .read] → ∀ timed,
      ∃ s', Shared.run timed [.close, .go] s = some s' ∧ s'.req = .crashed) ∧
    ∀ r ∈ [ReqAt.localAddr, .remoteAddr, .write, .deadline, .read], ∃ as s, Shared.run true as { conn := some 1 } = some s ∧ s.req = r ∧
      s.conn = some 1 := by
  constructor
  · intro s hs timed
    obtain ⟨conn, req, o, cl⟩ := s
    simp only [List.mem_cons, List.not_mem_nil, or_false] at hs
    rcases hs with rfl | rfl | rfl | rfl | rfl <;> cases conn <;> exact ⟨_, rfl, rfl⟩
  · intro r hr
    simp only [List.mem_cons, List.not_mem_nil, or_false] at hr
    rcases hr with rfl | rfl | rfl | rfl | rfl
    · exact ⟨[.begin none], _, rfl, rfl, rfl⟩
    · exact ⟨[.begin none, .go], _, rfl, rfl, rfl⟩
    · exact ⟨[.begin none, .go, .go], _, rfl, rfl, rfl⟩
    · exact ⟨[.begin none, .go, .go, .go], _, rfl, rfl, rfl⟩
    · exact ⟨[.begin none, .go, .go, .go, .go], _, rfl, rfl, rfl⟩

/-- C134 for a request waiting for its answer: if `Close` makes the read fail, the request ends with an error, nothing
crashes, and the connection is closed.
Missing: `C134_violated_during_request`, `C134_violated_reopened`. -/
theorem C134_waiting_partial (timed drop : Bool) (s : Shared) (c : Nat) (hr : s.req = .reading c) (hc : s.conn = some c) :
    ∃ s', Shared.run timed [.close, .readFailed drop] s = some s' ∧ s'.req = .idle ∧ s'.conn = none ∧ c ∈ s'.closed := by
  obtain ⟨conn, req, o, cl⟩ := s
  subst hr hc
  cases drop <;> exact ⟨_, rfl, rfl, rfl, by simp [Shared.fail, Shared.shut]⟩

example : ∃ s, Shared.run true [.begin none, .go, .go, .go, .go, .go] { conn := some 1 } = some s ∧ s.req = .reading 1 ∧ s.conn = some 1 :=
  ⟨_, rfl, rfl, rfl⟩

/-- One step keeps the account of the connections. -/
theorem Shared.step_account {timed : Bool} {a : ShareAct} {s s' : Shared} (h : s.step timed a = some s') (first : Option Nat)
    (hi : s.closed ++ s.conn.toList = first.toList ++ s.opened) : s'.closed ++ s'.conn.toList = first.toList ++ s'.opened := by
  obtain ⟨conn, req, o, cl⟩ := s
  have shut : ∀ x : Shared, x.closed ++ x.conn.toList = first.toList ++ x.opened →
      x.shut.closed ++ x.shut.conn.toList = first.toList ++ x.shut.opened := by
    intro x hx
    unfold Shared.shut
    split
    · next c hc => rw [hc] at hx; simpa using hx
    · exact hx
  have use : ∀ (x : Shared) (f : Nat → ReqAt), x.closed ++ x.conn.toList = first.toList ++ x.opened →
      (x.use f).closed ++ (x.use f).conn.toList = first.toList ++ (x.use f).opened := by
    intro x f hx
    unfold Shared.use
    split <;> simpa using hx
  have fail : ∀ (d : Bool) (x : Shared), x.closed ++ x.conn.toList = first.toList ++ x.opened →
      (x.fail d).closed ++ (x.fail d).conn.toList = first.toList ++ (x.fail d).opened := by
    intro d x hx
    cases d
    · exact hx
    · exact shut x hx
  cases a with
  | close => cases req <;> simp only [Shared.step, Option.some.injEq, reduceCtorEq] at h <;> (try subst h; exact shut _ hi)
  | begin d =>
    cases req <;> simp only [Shared.step, reduceCtorEq] at h
    cases conn <;> cases d <;> simp only [Option.some.injEq] at h <;> subst h <;> simp_all
  | go => cases req <;> simp only [Shared.step, Option.some.injEq, reduceCtorEq] at h <;> (try subst h; exact use _ _ hi)
  | writeFailed d =>
    cases req <;> simp only [Shared.step, Option.some.injEq, reduceCtorEq] at h
    cases conn <;> subst h
    · exact hi
    · exact fail _ _ hi
  | more => cases req <;> simp only [Shared.step, Option.some.injEq, reduceCtorEq] at h <;> (try subst h; exact hi)
  | last => cases req <;> simp only [Shared.step, Option.some.injEq, reduceCtorEq] at h <;> (try subst h; exact hi)
  | readFailed d => cases req <;> simp only [Shared.step, Option.some.injEq, reduceCtorEq] at h <;> (try subst h; exact fail _ _ hi)

theorem Shared.run_account {timed : Bool} (first : Option Nat) : ∀ (as : List ShareAct) (s s' : Shared), Shared.run timed as s = some s' →
    s.closed ++ s.conn.toList = first.toList ++ s.opened → s'.closed ++ s'.conn.toList = first.toList ++ s'.opened := by
  intro as
  induction as with
  | nil => intro s s' h hi; cases h; exact hi
  | cons a as ih =>
    intro s s' h hi
    unfold Shared.run at h
    rcases ha : s.step timed a with _ | s1
    · rw [ha] at h; cases h
    · rw [ha] at h
      exact ih s1 s' h (Shared.step_account ha first hi)

theorem Shared.run_snoc {timed : Bool} (a : ShareAct) : ∀ (as : List ShareAct) (s s' : Shared), Shared.run timed (as ++ [a]) s = some s' →
    ∃ s1, Shared.run timed as s = some s1 ∧ s1.step timed a = some s' := by
  intro as
  induction as with
  | nil =>
    intro s s' h
    rw [List.nil_append, Shared.run] at h
    rcases ha : s.step timed a with _ | s1
    · rw [ha] at h; cases h
    · rw [ha] at h
      cases h
      exact ⟨s, rfl, ha⟩
  | cons b as ih =>
    intro s s' h
    rw [List.cons_append] at h
    unfold Shared.run at h ⊢
    rcases hb : s.step timed b with _ | s1
    · rw [hb] at h; cases h
    · rw [hb] at h
      exact ih s1 s' h

/-- C134: however requests and calls of `Close` interleave, the connections of a broker are closed in the order in which they
were opened, each once, and all but the one in use; no connection is forgotten. -/
theorem C134_account (timed : Bool) (as : List ShareAct) (conn : Option Nat) (s : Shared)
    (hr : Shared.run timed as { conn := conn } = some s) : s.closed ++ s.conn.toList = conn.toList ++ s.opened :=
  Shared.run_account conn as _ s hr (by simp)

/-- C134: when a write or a read fails with an error for which the broker is closed (broker.go:247-251), or after
`Close`, every connection that was opened is closed. -/
theorem C134_broken (timed : Bool) (as : List ShareAct) (a : ShareAct) (conn : Option Nat) (s : Shared)
    (ha : a = .writeFailed true ∨ a = .readFailed true ∨ a = .close)
    (hr : Shared.run timed (as ++ [a]) { conn := conn } = some s) : s.closed = conn.toList ++ s.opened := by
  have key := C134_account timed _ conn s hr
  obtain ⟨s1, -, h⟩ := Shared.run_snoc a as _ s hr
  have none : s.conn = none := by
    obtain ⟨c, req, o, cl⟩ := s1
    rcases ha with rfl | rfl | rfl <;> cases req <;> simp only [Shared.step, Option.some.injEq, reduceCtorEq] at h <;>
      cases c <;> subst h <;> rfl
  simpa [none] using key

example : ∃ s, Shared.run true [.begin (some 1), .go, .go, .writeFailed true, .begin (some 2), .go, .go, .go, .go, .go, .readFailed true]
    { conn := none } = some s ∧ s.closed = [1, 2] ∧ s.req = .idle := ⟨_, rfl, rfl, rfl⟩

/-- C134 fails: a request made after `Close` opens a new connection, which `Close` (it cannot be called again) does not close. -/
theorem C134_violated_reopened : ∃ s, Shared.run true [.close, .begin (some 2)] { conn := some 1 } = some s ∧ s.closed = [1] ∧ s.opened = [2] ∧
    s.conn = some 2 := ⟨_, rfl, rfl, rfl, rfl⟩

end Healer
