import Verif.Model.ConsumerHold
import Verif.Props.Close
import Verif.Props.Holdings

/-!
# C167: the connections of a consumer
-/

namespace Healer

open Brokers

variable {W : Type} (net : Net W)

/-! ## Steps through the brokers -/

theorem coordinatorLoop_surplus (g : Bytes) (is : List BrokerInfo) (b : Brokers W) :
    Surplus 0 b.log (coordinatorLoop net g is b).2.log := by
  induction is generalizing b with
  | nil => exact Surplus.refl _
  | cons i is ih =>
    unfold coordinatorLoop
    cases hg : getBroker net i.nodeID b with
    | mk x b1 =>
      have h1 := getBroker_surplus net hg
      cases x with
      | error e => exact h1.zero (ih b1)
      | ok h =>
        dsimp only
        cases ha : askCoordinator net h.1 g b1 with
        | mk y b2 =>
          have h2 : Surplus 0 b1.log b2.log := by
            unfold askCoordinator at ha
            cases ha
            exact Surplus.one _ _ rfl
          obtain ⟨r, e⟩ := y
          cases e with
          | none => exact h1.zero h2
          | some e => exact h1.zero (h2.zero (ih b2))

theorem ownCoordinator_surplus (g : Bytes) (b : Brokers W) : Surplus 0 b.log (ownCoordinator net g b).2.log := by
  have h : Surplus 0 b.log (findCoordinator net g b).2.log := by
    unfold findCoordinator order
    exact coordinatorLoop_surplus net g _ { b with world := _ }
  unfold ownCoordinator
  cases hf : findCoordinator net g b with
  | mk x b1 =>
    rw [hf] at h
    cases x with
    | error e => exact h
    | ok r =>
      dsimp only
      cases hg : getBroker net r.nodeID b1 with
      | mk y b2 => exact h.zero (getBroker_surplus net hg)

theorem ownCoordinator_cached (g : Bytes) (b : Brokers W) : Cached b (ownCoordinator net g b).2 := by
  have h := findCoordinator_cached net g b
  unfold ownCoordinator
  cases hf : findCoordinator net g b with
  | mk x b1 =>
    rw [hf] at h
    cases x with
    | error e => exact h
    | ok r => exact h.trans (getBroker_cached net r.nodeID b1)

/-- `NewBroker` leaves the cache alone, and the connection it makes for a node is the one it returns. -/
theorem newBroker_one {n : Int32} {b b' : Brokers W} {r : Except Err (Nat × Int32)} (hc : newBroker net n b = (r, b')) :
    b'.cache = b.cache ∧ ∀ a m k, .connected a m k ∈ b'.log → m ≠ -1 → .connected a m k ∈ b.log ∨ ∃ j, r = .ok (k, j) := by
  have h1 := ensureKnown_tidy net n b
  unfold newBroker createBroker at hc
  split at hc
  · cases hc
    exact ⟨h1.looks.cache, fun a m k hk hm => .inl (h1.made a m k hk hm)⟩
  · rename_i i hi
    obtain ⟨d, h2, h3, -, hd⟩ := connect_quiet net i.netAddress i.nodeID (ensureKnown net n b)
    cases hcc : Brokers.connect net i.netAddress i.nodeID (ensureKnown net n b) with
    | mk x b1 =>
      rw [hcc] at hc h2 h3 hd
      dsimp only at h2 h3 hd
      cases x with
      | ok h =>
        cases hc
        refine ⟨h3.trans h1.looks.cache, fun a m k hk hm => ?_⟩
        rw [h2] at hk
        rcases List.mem_append.1 hk with hk | hk
        · exact .inl (h1.made a m k hk hm)
        · rcases hd with ⟨_, hd, rfl⟩ | ⟨_, hd, -⟩
          · cases hd
            cases List.mem_singleton.1 hk
            exact .inr ⟨_, rfl⟩
          · cases hd
      | error e =>
        cases hc
        refine ⟨h3.trans h1.looks.cache, fun a m k hk hm => ?_⟩
        rw [h2] at hk
        rcases List.mem_append.1 hk with hk | hk
        · exact .inl (h1.made a m k hk hm)
        · rcases hd with ⟨_, hd, -⟩ | ⟨_, -, rfl⟩
          · cases hd
          · cases List.mem_singleton.1 hk

/-- What looking for a leader does. -/
structure LeaderStep (r : Out (Nat × Int32)) (b b' : Brokers W) : Prop where
  log : Surplus (match r with | .ok _ => 1 | _ => 0) b.log b'.log
  cache : ∀ n h, b.cache.get n = some h → b'.cache.get n = some h
  made : ∀ a n k, .connected a n k ∈ b'.log → n ≠ -1 → .connected a n k ∈ b.log ∨ (∃ m, b'.cache.get m = some (k, n)) ∨ ∃ j, r = .ok (k, j)

theorem Surplus.only {k : Nat} {l l' : List Done} (h : Surplus k l l') : Surplus 0 l l' := h.weaken (Nat.zero_le _)

theorem getLeaderBroker_step (topic : Bytes) (pid : Int32) {b b' : Brokers W} {r : Out (Nat × Int32)}
    (h : getLeaderBroker net topic pid b = (r, b')) : LeaderStep r b b' := by
  have hc := findLeader_cached net topic pid b
  unfold getLeaderBroker at h
  cases hf : findLeader net topic pid b with
  | mk x b1 =>
    rw [hf] at h hc
    have hs := findLeader_surplus net hf
    have key : LeaderStep (.err .noAvailableBrokers) b b1 := ⟨hs, hc.grows.cache, fun a n k hk hn => (hc.made a n k hk hn).imp id .inl⟩
    have key' : ∀ r : Out (Nat × Int32), (∀ p, r ≠ .ok p) → LeaderStep r b b1 := fun r hr => by
      cases r with
      | ok p => exact absurd rfl (hr p)
      | err e => exact ⟨hs, hc.grows.cache, fun a n k hk hn => (hc.made a n k hk hn).imp id .inl⟩
      | panic => exact ⟨hs, hc.grows.cache, fun a n k hk hn => (hc.made a n k hk hn).imp id .inl⟩
    cases x with
    | panic => cases h; exact key' _ (by simp)
    | err e => cases h; exact key' _ (by simp)
    | ok node =>
      dsimp only at h
      by_cases hid : node = -1
      · rw [if_pos hid] at h; cases h; exact key' _ (by simp)
      · rw [if_neg hid] at h
        cases hn : newBroker net node b1 with
        | mk y b2 =>
          rw [hn] at h
          obtain ⟨h4, h5⟩ := newBroker_one net hn
          have hcache : ∀ n h, b.cache.get n = some h → b2.cache.get n = some h := fun n h hh => by rw [h4]; exact hc.grows.cache n h hh
          have hmade : ∀ a n k, .connected a n k ∈ b2.log → n ≠ -1 → .connected a n k ∈ b.log ∨ (∃ m, b2.cache.get m = some (k, n)) ∨ ∃ j, y = .ok (k, j) := by
            intro a n k hk hne
            rcases h5 a n k hk hne with h6 | h6
            · rcases hc.made a n k h6 hne with h7 | h7
              · exact .inl h7
              · exact .inr (.inl (by rw [h4]; exact h7))
            · exact .inr (.inr h6)
          cases y with
          | ok p =>
            cases h
            refine ⟨hs.zero (newBroker_ok_surplus net hn), hcache, fun a n k hk hne => ?_⟩
            rcases hmade a n k hk hne with h6 | h6 | ⟨j, h6⟩
            · exact .inl h6
            · exact .inr (.inl h6)
            · cases h6; exact .inr (.inr ⟨j, rfl⟩)
          | error e =>
            have hmade' : ∀ a n k, .connected a n k ∈ b2.log → n ≠ -1 → .connected a n k ∈ b.log ∨ ∃ m, b2.cache.get m = some (k, n) := by
              intro a n k hk hne
              rcases hmade a n k hk hne with h6 | h6 | ⟨j, h6⟩
              · exact .inl h6
              · exact .inr h6
              · cases h6
            dsimp only at h
            split at h <;> cases h
            · exact ⟨hs.zero (newBroker_surplus net hn), hcache, fun a n k hk hne => (hmade' a n k hk hne).imp id .inl⟩
            · exact ⟨hs.zero (newBroker_surplus net hn), hcache, fun a n k hk hne => (hmade' a n k hk hne).imp id .inl⟩

/-! ## What is kept -/

/-- Each connection made for a node is in the cache, or is that of a leader, or has been closed. -/
def ConsumerHold.Kept (c : ConsumerHold W) : Prop :=
  ∀ a n k, .connected a n k ∈ c.own.log → n ≠ -1 →
    (∃ m, c.own.cache.get m = some (k, n)) ∨ (∃ i, AMap.get c.leaders i = some k) ∨ Done.closed k ∈ c.own.log

/-- Beside the leaders' there is one more connection that was made and not closed. -/
def ConsumerHold.Piled (c : ConsumerHold W) : Prop := closeCount c.own.log + c.leaders.length + 1 ≤ madeCount c.own.log

theorem hold_through {c : ConsumerHold W} {b : Brokers W} (hs : Surplus 0 c.own.log b.log) (hg : ∀ n h, c.own.cache.get n = some h → b.cache.get n = some h)
    (hm : ∀ a n k, .connected a n k ∈ b.log → n ≠ -1 → .connected a n k ∈ c.own.log ∨ ∃ m, b.cache.get m = some (k, n)) (hc : c.Kept ∧ c.Piled) :
    ({ c with own := b } : ConsumerHold W).Kept ∧ ({ c with own := b } : ConsumerHold W).Piled := by
  constructor
  · intro a n k hk hn
    rcases hm a n k hk hn with h | h
    · rcases hc.1 a n k h hn with ⟨m, h⟩ | h | h
      · exact .inl ⟨m, hg m _ h⟩
      · exact .inr (.inl h)
      · exact .inr (.inr (hs.sub h))
    · exact .inl h
  · have := hs.count
    have h2 := hc.2
    unfold ConsumerHold.Piled at h2 ⊢
    dsimp only
    omega

theorem AMap.get_del {α β : Type} [DecidableEq α] (m : AMap α β) (k k' : α) :
    AMap.get (AMap.del m k) k' = if k' = k then none else AMap.get m k' := by
  induction m with
  | nil => simp [AMap.del, AMap.get]
  | cons e m ih =>
    obtain ⟨a, b⟩ := e
    unfold AMap.del at ih ⊢
    rw [List.filter_cons]
    by_cases ha : a = k
    · subst ha
      simp only [ne_eq, not_true_eq_false, decide_false, Bool.false_eq_true, if_false]
      rw [ih, AMap.get_cons]
      by_cases hk : k' = a
      · rw [if_pos hk, if_pos hk]
      · rw [if_neg hk, if_neg hk, if_neg hk]
    · simp only [ne_eq, ha, not_false_eq_true, decide_true, if_true]
      rw [AMap.get_cons, ih, AMap.get_cons]
      by_cases hk : k' = a
      · rw [if_pos hk, if_pos hk, if_neg (by rw [hk]; exact ha)]
      · rw [if_neg hk, if_neg hk]

theorem AMap.del_length {α β : Type} [DecidableEq α] (m : AMap α β) (k : α) (v : β) (h : AMap.get m k = some v) :
    (AMap.del m k).length + 1 ≤ m.length := by
  induction m with
  | nil => simp [AMap.get] at h
  | cons e m ih =>
    obtain ⟨a, b⟩ := e
    rw [AMap.get_cons] at h
    unfold AMap.del at ih ⊢
    rw [List.filter_cons]
    by_cases hk : k = a
    · subst hk
      simp only [ne_eq, not_true_eq_false, decide_false, Bool.false_eq_true, if_false, List.length_cons]
      have := List.length_filter_le (fun e : α × β => decide (e.1 ≠ k)) m
      simp only [ne_eq] at this
      omega
    · rw [if_neg hk] at h
      have := ih h
      simp only [ne_eq, Ne.symm hk, not_false_eq_true, decide_true, if_true, List.length_cons] at this ⊢
      omega

theorem lead_holds {i : Nat} {topic : Bytes} {pid : Int32} {c c' : ConsumerHold W} (hc : c.Kept ∧ c.Piled) (h : c.lead net i topic pid = .ok c') :
    c'.Kept ∧ c'.Piled := by
  unfold ConsumerHold.lead at h
  cases hl : AMap.get c.leaders i with
  | some x => rw [hl] at h; cases h; exact hc
  | none =>
    rw [hl] at h
    cases hg : getLeaderBroker net topic pid c.own with
    | mk r b =>
      have hs := getLeaderBroker_step net topic pid hg
      rw [hg] at h
      cases r with
      | panic => cases h
      | err e =>
        cases h
        refine hold_through hs.log hs.cache (fun a n k hk hn => ?_) hc
        rcases hs.made a n k hk hn with h1 | h1 | ⟨j, h1⟩
        · exact .inl h1
        · exact .inr h1
        · cases h1
      | ok p =>
        cases h
        constructor
        · intro a n k hk hn
          dsimp only at hk ⊢
          rcases hs.made a n k hk hn with h1 | h1 | ⟨j, h1⟩
          · rcases hc.1 a n k h1 hn with ⟨m, h2⟩ | ⟨m, h2⟩ | h2
            · exact .inl ⟨m, hs.cache m _ h2⟩
            · refine .inr (.inl ⟨m, ?_⟩)
              rw [AMap.get_set, if_neg (fun hm => by rw [hm, hl] at h2; cases h2)]
              exact h2
            · exact .inr (.inr (hs.log.sub h2))
          · exact .inl h1
          · cases h1
            refine .inr (.inl ⟨i, ?_⟩)
            rw [AMap.get_set, if_pos rfl]
        · have h1 := hs.log.count
          have h2 := hc.2
          unfold ConsumerHold.Piled at h2 ⊢
          dsimp only at h1 ⊢
          rw [AMap.set_new _ _ _ hl, List.length_append, List.length_singleton]
          omega

theorem drop_holds (i : Nat) {c : ConsumerHold W} (hc : c.Kept ∧ c.Piled) : (c.drop i).Kept ∧ (c.drop i).Piled := by
  unfold ConsumerHold.drop
  cases hl : AMap.get c.leaders i with
  | none => exact hc
  | some h =>
    constructor
    · intro a n k hk hn
      dsimp only at hk ⊢
      rcases List.mem_append.1 hk with hk | hk
      · rcases hc.1 a n k hk hn with h1 | ⟨j, h1⟩ | h1
        · exact .inl h1
        · by_cases hj : j = i
          · rw [hj, hl] at h1
            cases h1
            exact .inr (.inr (List.mem_append_right _ (List.mem_singleton.2 rfl)))
          · exact .inr (.inl ⟨j, by rw [AMap.get_del, if_neg hj]; exact h1⟩)
        · exact .inr (.inr (List.mem_append_left _ h1))
      · cases List.mem_singleton.1 hk
    · have h1 := AMap.del_length _ _ _ hl
      have h2 := hc.2
      unfold ConsumerHold.Piled at h2 ⊢
      dsimp only
      have e3 : closeCount [Done.closed h] = 1 := rfl
      have e4 : madeCount [Done.closed h] = 0 := rfl
      rw [closeCount_append, madeCount_append]
      omega

theorem watch_holds {a : WatchAct} {c c' : ConsumerHold W} (hc : c.Kept ∧ c.Piled) (h : c.step net a = .ok c') : c'.Kept ∧ c'.Piled := by
  cases a with
  | metadata ts =>
    cases h
    have h1 := requestMetaData_cached net ts c.own
    exact hold_through (requestMetaData_surplus net ts c.own) h1.grows.cache h1.made hc
  | coordinator g =>
    cases h
    have h1 := ownCoordinator_cached net g c.own
    exact hold_through (ownCoordinator_surplus net g c.own) h1.grows.cache h1.made hc
  | lead i topic pid => exact lead_holds net hc h
  | moved i => cases h; exact drop_holds i hc

theorem watches_hold (as : List WatchAct) {c c' : ConsumerHold W} (hc : c.Kept ∧ c.Piled) (h : c.run net as = .ok c') : c'.Kept ∧ c'.Piled := by
  induction as generalizing c with
  | nil => cases h; exact hc
  | cons a as ih =>
    unfold ConsumerHold.run at h
    cases hs : c.step net a with
    | ok c1 => rw [hs] at h; exact ih (watch_holds net hc hs) h
    | err e => rw [hs] at h; cases h
    | panic => rw [hs] at h; cases h

theorem bootstrapLoop_unnamed (bs as : List Bytes) (w : W) (log : List Done) (hl : ∀ a n k, Done.connected a n k ∈ log → n = -1) (b : Brokers W)
    (h : (bootstrapLoop net bs as w log).1 = .ok b) : ∀ a n k, Done.connected a n k ∈ b.log → n = -1 := by
  induction as generalizing w log with
  | nil => cases h
  | cons a as ih =>
    unfold bootstrapLoop at h
    cases hc : net.connect a (-1) w with
    | mk r w1 =>
      rw [hc] at h
      cases r with
      | error e =>
        refine ih _ _ (fun a n k hk => ?_) h
        rcases List.mem_append.1 hk with hk | hk
        · exact hl a n k hk
        · cases List.mem_singleton.1 hk
      | ok o =>
        dsimp only at h
        cases hf : fromOne net bs a o w1 with
        | error e =>
          rw [hf] at h
          refine ih _ _ (fun a n k hk => ?_) h
          rcases List.mem_append.1 hk with hk | hk
          · exact hl a n k hk
          · simp only [List.mem_cons, Done.connected.injEq, List.not_mem_nil, or_false, reduceCtorEq] at hk
            exact hk.2.1
        | ok b0 =>
          rw [hf] at h
          cases h
          intro a n k hk
          rcases List.mem_append.1 hk with hk | hk
          · exact hl a n k hk
          · rcases List.mem_cons.1 hk with hk | hk
            · cases hk; rfl
            · exact absurd hk ((fromOne_start net bs _ _ w1 b0 hf).1 a n k)

theorem consumer_new {servers : Bytes} {w : W} {c : ConsumerHold W} (h : ConsumerHold.new net servers w = .ok c) : c.Kept ∧ c.Piled := by
  unfold ConsumerHold.new at h
  have hb := bootstrapLoop_surplus net (splitAt 44 servers) (splitAt 44 servers) w []
  have hu := bootstrapLoop_unnamed net (splitAt 44 servers) (splitAt 44 servers) w [] (fun a n k hk => by cases hk)
  cases hn : newBrokers net servers w with
  | mk r log =>
    rw [hn] at h
    unfold newBrokers at hn
    rw [hn] at hb hu
    cases r with
    | error e => cases h
    | ok b =>
      cases h
      refine ⟨fun a n k hk hne => absurd (hu b rfl a n k hk) hne, ?_⟩
      have := (hb.2 b rfl).count
      unfold ConsumerHold.Piled
      have e1 : closeCount ([] : List Done) = 0 := rfl
      have e2 : madeCount ([] : List Done) = 0 := rfl
      dsimp only [List.length_nil]
      omega

/-! ## C167 -/

/-- **C167, the part that holds: consumers with several partitions.** Whatever the cluster does, however often leaders move and metadata and coordinators are asked for: `AwaitClose` closes every
connection that was ever made for a node of the cluster — those to the leaders, to the coordinator, and those asked for metadata.  What is missing: the connections that were made to look at
the metadata only (node id -1; C147, `C134_violated_bootstrap`), and closing twice (`C134_violated_twice`). -/
theorem C167_await_partial (servers : Bytes) (w : W) (as : List WatchAct) (c c' : ConsumerHold W)
    (hn : ConsumerHold.new net servers w = .ok c) (hr : c.run net as = .ok c') :
    ∃ z, c'.await net = .ok z ∧ ∀ a n k, .connected a n k ∈ z.brokers.log → n ≠ -1 → Done.closed k ∈ z.brokers.log := by
  have hk := (watches_hold net as (consumer_new net hn) hr).1
  refine ⟨_, rfl, fun a n k hm hne => ?_⟩
  have hp := net.shuffle_perm (c'.stop.own.cache.map fun e => e.2.1) c'.stop.own.world
  have hm' : Done.connected a n k ∈ c'.own.log := by
    rcases List.mem_append.1 hm with h | h
    · rcases List.mem_append.1 h with h | h
      · exact h
      · obtain ⟨_, -, h⟩ := List.mem_map.1 h; cases h
    · obtain ⟨_, -, h⟩ := List.mem_map.1 h; cases h
  rcases hk a n k hm' hne with ⟨m, h⟩ | ⟨i, h⟩ | h
  · refine List.mem_append_right _ (List.mem_map_of_mem (hp.mem_iff.2 (List.mem_map.2 ⟨(m, (k, n)), AMap.mem_of_get_eq_some _ _ _ h, rfl⟩)))
  · exact List.mem_append_left _ (List.mem_append_right _ (List.mem_map.2 ⟨(i, k), AMap.mem_of_get_eq_some _ _ _ h, rfl⟩))
  · exact List.mem_append_left _ (List.mem_append_left _ h)

/-- **C167, the part that holds: one partition.** After `Stop` of the partition consumers no connection to a leader is left: what was made for a node is closed, or is one of those in the cache
of the brokers.  What is missing: those in the cache and those made to look at the metadata (`C167_violated_every`). -/
theorem C167_stop_partial (servers : Bytes) (w : W) (as : List WatchAct) (c c' : ConsumerHold W)
    (hn : ConsumerHold.new net servers w = .ok c) (hr : c.run net as = .ok c') (a : Bytes) (n : Int32) (k : Nat)
    (hm : .connected a n k ∈ c'.stop.own.log) (hne : n ≠ -1) : Done.closed k ∈ c'.stop.own.log ∨ ∃ m, c'.stop.own.cache.get m = some (k, n) := by
  have hk := (watches_hold net as (consumer_new net hn) hr).1
  have hm' : Done.connected a n k ∈ c'.own.log := by
    rcases List.mem_append.1 hm with h | h
    · exact h
    · obtain ⟨_, -, h⟩ := List.mem_map.1 h; cases h
  rcases hk a n k hm' hne with h | ⟨i, h⟩ | h
  · exact .inr h
  · exact .inl (List.mem_append_right _ (List.mem_map.2 ⟨(i, k), AMap.mem_of_get_eq_some _ _ _ h, rfl⟩))
  · exact .inl (List.mem_append_left _ h)

/-- C167 does not hold for a `SimpleConsumer` made by `NewSimpleConsumer`: whatever the cluster does and whatever the consumer did, after `Stop` there is a connection that was made and
that nothing closes. -/
theorem C167_violated_every (servers : Bytes) (w : W) (as : List WatchAct) (c c' : ConsumerHold W)
    (hn : ConsumerHold.new net servers w = .ok c) (hr : c.run net as = .ok c') :
    closeCount c'.stop.own.log + 1 ≤ madeCount c'.stop.own.log := by
  have hk := (watches_hold net as (consumer_new net hn) hr).2
  unfold ConsumerHold.Piled at hk
  have e1 : ∀ l : List (Nat × Nat), closeCount (l.map fun e => Done.closed e.2) = l.length ∧ madeCount (l.map fun e => Done.closed e.2) = 0 := by
    intro l
    induction l with
    | nil => exact ⟨rfl, rfl⟩
    | cons e l ih =>
      have ha : (Done.closed e.2 :: l.map fun e => Done.closed e.2) = [Done.closed e.2] ++ l.map fun e => Done.closed e.2 := rfl
      have e3 : closeCount [Done.closed e.2] = 1 := rfl
      have e4 : madeCount [Done.closed e.2] = 0 := rfl
      rw [List.map_cons, ha, closeCount_append, madeCount_append, List.length_cons]
      omega
  have e2 := e1 c'.leaders
  unfold ConsumerHold.stop
  dsimp only
  rw [closeCount_append, madeCount_append]
  omega

/-- Two partitions, one of which gets another leader. -/
def demoWatch : List WatchAct := [.metadata [[116]], .coordinator [103], .lead 0 [116] 0, .lead 1 [116] 0, .moved 0, .lead 0 [116] 0]

example : (match ConsumerHold.new goodNet [97, 58, 49] 0 with
    | .ok c => (match c.run goodNet demoWatch with | .ok c => (c.led, closeCount c.stop.own.log, madeCount c.stop.own.log,
        (c.await goodNet).okAnd fun z => decide (closeCount z.brokers.log = madeCount z.brokers.log)) | _ => ([], 0, 0, false))
    | _ => ([], 0, 0, false)) = ([10, 8, 6], 3, 5, true) := by decide +kernel

end Healer
