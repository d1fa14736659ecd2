import Verif.Props.Bootstrap
import Verif.Props.MultiConsumer
import Verif.Props.Learned
import Verif.Props.Message
import Verif.Props.Request3

/-!
# Faults shown for all inputs, part 9 (C63, C82, C94, C125, C126, C147)
-/

namespace Healer

open Brokers

variable {W : Type}

/-! ## C94: the groups of the bootstrap server -/

theorem listGroupsLoop_keeps (net : Net W) (hn : ∀ k w, (net.listGroups k w).1 ≠ (none, none)) (h : Nat) (n : Int32)
    (hg : ∀ w, ∃ x, (net.listGroups h w).1 = (some x, none) ∧ x.groups ≠ []) (is : List BrokerInfo) (acc : AMap Int32 (List ListedGroup)) (b : Brokers W)
    (hc : b.cache.get n = some (h, -1)) (he : (listGroupsLoop net is acc b).1.2 = none)
    (hm : (∃ i ∈ is, i.nodeID = n) ∨ ∃ gs, acc.get (-1) = some gs ∧ gs ≠ []) :
    ∃ gs, (listGroupsLoop net is acc b).1.1.get (-1) = some gs ∧ gs ≠ [] := by
  induction is generalizing b acc with
  | nil =>
    rcases hm with ⟨i, hi, -⟩ | hm
    · cases hi
    · exact hm
  | cons i is ih =>
    have h1 := getBroker_grows net i.nodeID b
    have h0 : i.nodeID = n → (getBroker net i.nodeID b).1 = .ok (h, -1) := by
      intro e
      rw [e, getBroker, hc]
    unfold listGroupsLoop at he ⊢
    revert he h1 h0
    rcases getBroker net i.nodeID b with ⟨_ | k, b1⟩ <;> intro h1 h0 he
    · simp at he
    · have hl := askListGroups_looks net k.1 b1
      have ha : (askListGroups net k.1 b1).1 = (net.listGroups k.1 b1.world).1 := rfl
      have hne := hn k.1 b1.world
      have hgk := hg b1.world
      simp only at he ⊢
      revert he hl ha
      rcases askListGroups net k.1 b1 with ⟨⟨_ | r, _ | e⟩, b2⟩ <;> intro he hl ha
      · exact absurd ha.symm hne
      · simp at he
      · simp only at he ⊢
        refine ih _ b2 ((h1.trans hl.grows).cache _ _ hc) he ?_
        rcases hm with ⟨j, hj, hjn⟩ | ⟨gs, hgs, hgn⟩
        · rcases List.mem_cons.1 hj with rfl | hj
          · right
            have hk : k = (h, -1) := Except.ok.inj (h0 hjn)
            subst hk
            obtain ⟨x, hx, hxg⟩ := hgk
            have : (some r, (none : Option Err)) = (some x, none) := ha.trans hx
            cases this
            rw [if_neg hxg]
            exact ⟨r.groups, by rw [AMap.get_set, if_pos rfl], hxg⟩
          · exact .inl ⟨j, hj, hjn⟩
        · right
          split
          · exact ⟨gs, hgs, hgn⟩
          · rename_i hrg
            rw [AMap.get_set]
            split
            · exact ⟨_, rfl, hrg⟩
            · exact ⟨gs, hgs, hgn⟩
      · simp at he

/-- **C94 is violated for every cluster** whose bootstrap server goes by the address the cluster has for it and coordinates groups: whenever `ListGroups` succeeds, groups are listed
under node -1. -/
theorem C94_violated_every_bootstrap (net : Net W) (hn : ∀ k w, (net.listGroups k w).1 ≠ (none, none)) (servers : List Bytes) (a : Bytes) (h : Nat) (w : W) (b : Brokers W)
    (hf : fromOne net servers a h w = .ok b) (r : MetadataResponse) (hr : (net.metadata h [] w).1 = (r, none)) (i : BrokerInfo) (hi : i ∈ r.brokers)
    (ha : i.netAddress = a) (hg : ∀ w, ∃ x, (net.listGroups h w).1 = (some x, none) ∧ x.groups ≠ []) (he : (listGroups net b).1.2 = none) :
    ∃ gs, (listGroups net b).1.1.get (-1) = some gs ∧ gs ≠ [] := by
  have hc := fromOne_cached net servers a h w b hf r hr i hi ha
  obtain ⟨r', hr', -, -, hinf, -⟩ := fromOne_good net servers a h w b hf
  rw [hr] at hr'
  cases hr'
  refine listGroupsLoop_keeps net hn h i.nodeID hg _ _ _ hc he (.inl ?_)
  obtain ⟨j, hj⟩ : ∃ j, b.infos.get i.nodeID = some j := by
    rw [hinf, infosOf_get]
    unfold entryFor
    have : (r.brokers.filter fun x => x.nodeID = i.nodeID) ≠ [] := fun e => by
      have hm : i ∈ r.brokers.filter fun x => x.nodeID = i.nodeID := List.mem_filter.2 ⟨hi, by simp⟩
      rw [e] at hm
      cases hm
    exact ⟨_, List.getLast?_eq_some_getLast this⟩
  have hmem := AMap.mem_of_get_eq_some _ _ _ hj
  have hk : j.nodeID = i.nodeID := by
    have := (hinf ▸ InfosOk.of r.brokers : InfosOk b.infos).key _ hmem
    exact this
  exact ⟨j, (net.shuffle_perm _ _).mem_iff.2 (List.mem_map.2 ⟨_, hmem, rfl⟩), hk⟩

example : ∃ gs, (listGroups goodNet (demoBrokers goodNet)).1.1.get (-1) = some gs ∧ gs ≠ [] :=
  C94_violated_every_bootstrap goodNet (fun _ _ => by intro e; cases e) [[97, 58, 49]] [97, 58, 49] 0 0 _ rfl demoMeta rfl (demoInfo 1 97) (by decide +kernel) rfl
    (fun _ => ⟨_, rfl, by simp⟩) (by decide +kernel)

/-! ## C147: connections left open -/

theorem AllUseless.no_closes {as : List Bytes} {ds : List Done} (h : AllUseless as ds) : ∀ q, ds.any (Done.closes q) = false := by
  intro q
  induction h with
  | nil => rfl
  | cons hu _ ih =>
    rw [List.any_append, ih, Bool.or_false]
    cases hu <;> rfl

theorem fromOne_only (net : Net W) (bootstrap : List Bytes) (a : Bytes) (h : Nat) (w : W) (b : Brokers W) (hf : fromOne net bootstrap a h w = .ok b)
    (r : MetadataResponse) (hr : (net.metadata h [] w).1 = (r, none)) :
    (∀ n x, b.cache.get n = some x → x = (h, -1)) ∧ ((∀ i ∈ r.brokers, i.netAddress ≠ a) → b.cache = []) := by
  unfold fromOne at hf
  simp only [askMetadata] at hf
  rw [hr] at hf
  simp only at hf
  split at hf
  · cases hf
  · cases hf
    have key : ∀ (bs : List BrokerInfo) (b : Brokers W), (∀ n x, b.cache.get n = some x → x = (h, -1)) →
        (∀ n x, (bs.foldl (fun (b : Brokers W) i =>
          { b with infos := b.infos.set i.nodeID i
                   cache := if a = i.netAddress then b.cache.set i.nodeID (h, -1) else b.cache }) b).cache.get n = some x → x = (h, -1)) ∧
        ((∀ i ∈ bs, i.netAddress ≠ a) → (bs.foldl (fun (b : Brokers W) i =>
          { b with infos := b.infos.set i.nodeID i
                   cache := if a = i.netAddress then b.cache.set i.nodeID (h, -1) else b.cache }) b).cache = b.cache) := by
      intro bs
      induction bs with
      | nil => intro b hb; exact ⟨hb, fun _ => rfl⟩
      | cons j bs ih =>
        intro b hb
        simp only [List.foldl_cons]
        obtain ⟨i1, i2⟩ := ih { b with infos := b.infos.set j.nodeID j
                                       cache := if a = j.netAddress then b.cache.set j.nodeID (h, -1) else b.cache } (by
          intro n x hx
          simp only at hx
          split at hx
          · rw [AMap.get_set] at hx
            split at hx
            · exact (Option.some.inj hx).symm
            · exact hb n x hx
          · exact hb n x hx)
        refine ⟨i1, fun hn => (i2 fun i hi => hn i (List.mem_cons_of_mem _ hi)).trans ?_⟩
        exact if_neg fun e => hn j (by simp) e.symm
    exact key r.brokers _ (fun n x hx => by cases hx)

theorem bootstrapLoop_full (net : Net W) (all : List Bytes) (as : List Bytes) (w : W) (log : List Done) (b : Brokers W) (log' : List Done)
    (h : bootstrapLoop net all as w log = (.ok b, log')) :
    ∃ pre ds a k r, AllUseless pre ds ∧ log' = log ++ ds ++ [.connected a (-1) k, .metadata k [] (r, none)] ∧ b.log = log' ∧
      (∀ n x, b.cache.get n = some x → x = (k, -1)) ∧ ((∀ i ∈ r.brokers, i.netAddress ≠ a) → b.cache = []) := by
  induction as generalizing w log with
  | nil => simp [bootstrapLoop] at h
  | cons a as ih =>
    unfold bootstrapLoop at h
    rcases hc : net.connect a (-1) w with ⟨e | k, w1⟩
    · rw [hc] at h
      simp only at h
      obtain ⟨pre, ds, a', k, r, p0, p1, p2⟩ := ih _ _ h
      exact ⟨a :: pre, _, a', k, r, .cons (.refused e) p0, by rw [p1]; simp, p2⟩
    · rw [hc] at h
      simp only at h
      rcases hf : fromOne net all a k w1 with e | b0
      · rw [hf] at h
        simp only at h
        have hu := fromOne_error net all a k w1 e hf
        obtain ⟨pre, ds, a', k', r, p0, p1, p2⟩ := ih _ _ h
        exact ⟨a :: pre, _, a', k', r, .cons hu p0, by rw [p1]; simp, p2⟩
      · rw [hf] at h
        simp only [Prod.mk.injEq, Except.ok.injEq] at h
        obtain ⟨rfl, rfl⟩ := h
        obtain ⟨r, hr, _, hb3, _⟩ := fromOne_good net all a k w1 b0 hf
        have := fromOne_only net all a k w1 b0 hf r hr
        exact ⟨[], [], a, k, r, .nil, by rw [hb3]; simp, rfl, this.1, this.2⟩

/-- **C147 is violated for every list of servers** in which one was connected to and did not help, before one did: its connection is open after `NewBrokers` has returned, and no
node's object has it, so that nothing closes it. -/
theorem C147_violated_every_left_open (net : Net W) (servers : Bytes) (w : W) (b : Brokers W) (log ds : List Done) (a : Bytes) (k : Nat) (r : MetadataResponse)
    (h : newBrokers net servers w = (.ok b, log)) (hl : log = ds ++ [.connected a (-1) k, .metadata k [] (r, none)])
    (a' : Bytes) (k' : Nat) (hk : .connected a' (-1) k' ∈ ds) (hne : k' ≠ k) :
    k' ∈ b.open ∧ ∀ n x, b.cache.get n = some x → x.1 ≠ k' := by
  obtain ⟨pre, ds', a1, k1, r1, p0, p1, p2, p3, p4⟩ := bootstrapLoop_full net _ _ _ _ _ _ h
  have heq : ds ++ [Done.connected a (-1) k, .metadata k [] (r, none)] = ds' ++ [Done.connected a1 (-1) k1, .metadata k1 [] (r1, none)] := by
    rw [← hl, p1, List.nil_append]
  obtain ⟨rfl, h2⟩ := List.append_inj' heq rfl
  simp only [List.cons.injEq, Done.connected.injEq, Done.metadata.injEq, Prod.mk.injEq, and_true, true_and] at h2
  obtain ⟨⟨rfl, rfl⟩, -, rfl⟩ := h2
  refine ⟨?_, fun n x hx => ?_⟩
  · unfold Brokers.open
    rw [p2, hl]
    refine List.mem_filter.2 ⟨List.mem_filterMap.2 ⟨_, List.mem_append_left _ hk, rfl⟩, ?_⟩
    rw [List.any_append, p0.no_closes]
    simp [Done.closes]
  · rw [p3 n x hx]
    exact fun e => hne e.symm

/-- **C147 is violated for every server** given under an address other than those the cluster has for its nodes: the connection to it is open after `NewBrokers` has returned, and no
object is kept. -/
theorem C147_violated_every_alias (net : Net W) (servers : Bytes) (w : W) (b : Brokers W) (log ds : List Done) (a : Bytes) (k : Nat) (r : MetadataResponse)
    (h : newBrokers net servers w = (.ok b, log)) (hl : log = ds ++ [.connected a (-1) k, .metadata k [] (r, none)])
    (ha : ∀ i ∈ r.brokers, i.netAddress ≠ a) : k ∈ b.open ∧ b.cache = [] := by
  obtain ⟨pre, ds', a1, k1, r1, p0, p1, p2, p3, p4⟩ := bootstrapLoop_full net _ _ _ _ _ _ h
  have heq : ds ++ [Done.connected a (-1) k, .metadata k [] (r, none)] = ds' ++ [Done.connected a1 (-1) k1, .metadata k1 [] (r1, none)] := by
    rw [← hl, p1, List.nil_append]
  obtain ⟨rfl, h2⟩ := List.append_inj' heq rfl
  simp only [List.cons.injEq, Done.connected.injEq, Done.metadata.injEq, Prod.mk.injEq, and_true, true_and] at h2
  obtain ⟨⟨rfl, rfl⟩, -, rfl⟩ := h2
  refine ⟨?_, p4 ha⟩
  unfold Brokers.open
  rw [p2, hl]
  refine List.mem_filter.2 ⟨List.mem_filterMap.2 ⟨.connected a (-1) k, by simp, rfl⟩, ?_⟩
  rw [List.any_append, p0.no_closes]
  simp [Done.closes]

/-- the servers of `C147_violated_left_open` -/
example : ∃ b log, newBrokers halfwitNet (joined [[120], [121], [97, 58, 49]]) 0 = (.ok b, log) ∧ 1 ∈ b.open ∧ ∀ n x, b.cache.get n = some x → x.1 ≠ 1 :=
  ⟨_, _, rfl, C147_violated_every_left_open halfwitNet (joined [[120], [121], [97, 58, 49]]) 0 _ _
    [.connectFailed [120] (-1) _, .connected [121] (-1) 1, .metadata 1 [] (⟨0, 0, [], [], 1, []⟩, none)] [97, 58, 49] 3 demoMeta rfl rfl [121] 1 (by simp) (by decide)⟩

/-- the server of `C147_violated_alias` -/
example : ∃ b log, newBrokers goodNet (joined [[108, 58, 49]]) 0 = (.ok b, log) ∧ 0 ∈ b.open ∧ b.cache = [] :=
  ⟨_, _, rfl, C147_violated_every_alias goodNet (joined [[108, 58, 49]]) 0 _ _ [] [108, 58, 49] 0 demoMeta rfl rfl (by decide +kernel)⟩

/-! ## C125, C126: the consumer without a group -/

theorem MC.run_append (calm : Bool) (as bs : List MultiAct) (s : MC) : MC.run calm (as ++ bs) s = (MC.run calm as s).bind (MC.run calm bs) := by
  induction as generalizing s with
  | nil => rfl
  | cons a as ih =>
    show ((s.step calm a).bind fun t => MC.run calm (as ++ bs) t) = ((s.step calm a).bind (MC.run calm as)).bind (MC.run calm bs)
    cases s.step calm a with
    | none => rfl
    | some t => exact ih t

theorem MC.run_chain {calm : Bool} {as bs : List MultiAct} {s t u : MC} (h1 : MC.run calm as s = some t) (h2 : MC.run calm bs t = some u) :
    MC.run calm (as ++ bs) s = some u := by
  rw [MC.run_append, h1]
  exact h2

theorem MultiInv.of_run {as : List MultiAct} {s : MC} (h : MC.run true as {} = some s) : MultiInv s :=
  MC.run_induction (fun _ _ _ hs hi => MultiInv.step hs hi) as {} s h .init

/-- stopping more than are counted crashes -/
theorem MC.stop_crash (timeout : Bool) : ∀ (n : Nat) (l : List Nat) (s : MC), s.crashed = false → s.close = .stopping l → s.counter = n → n < l.length →
    (MC.run false (List.replicate (n + 1) (.closeStep timeout)) s).map MC.crashed = some true := by
  intro n
  induction n with
  | zero =>
    intro l s hs hc hn hl
    obtain ⟨i, rest, rfl⟩ := List.exists_cons_of_length_pos hl
    simp [MC.run, MC.step, MC.closeNext, MC.stopOne, hs, hc, hn]
  | succ n ih =>
    intro l s hs hc hn hl
    obtain ⟨i, rest, rfl⟩ := List.exists_cons_of_length_pos (Nat.lt_of_le_of_lt (Nat.zero_le _) hl)
    have : MC.step false (.closeStep timeout) s = some { s.stopOne i with close := .stopping rest } := by
      simp [MC.step, MC.closeNext, hs, hc]
    rw [List.replicate_succ, MC.run, this]
    refine ih rest _ ?_ rfl ?_ (by simpa using hl)
    · simp [MC.stopOne, hs, hn]
    · simp [MC.stopOne, hn]

/-- **C125 is violated by every second `AwaitClose`**: however the first went, as soon as there was a partition consumer to stop, it crashes with its first step. -/
theorem C125_violated_every_twice (as : List MultiAct) (s : MC) (h : MC.run true as {} = some s) (hd : s.close = .done ∨ s.close = .timedOut)
    (hc : s.consumers ≠ []) (timeout : Bool) : (MC.run false [.close, .closeStep timeout] s).map MC.crashed = some true := by
  have hi := MultiInv.of_run h
  obtain ⟨h1, -, -, -, -, -, -, -, h9⟩ := hi
  have h0 := (h9 (.inr hd)).2.2
  have hs : MC.step false .close s = some { s with closed := true, close := .stopping s.consumers } := by
    simp [MC.step, h1, hd]
  rw [MC.run, hs]
  exact MC.stop_crash timeout 0 s.consumers { s with closed := true, close := .stopping s.consumers } h1 rfl h0 (List.length_pos_iff.2 hc)

/-- **C125 is violated by every `AwaitClose` while `Consume` has partition consumers still to start**: it stops also those, and crashes as soon as it has stopped as many as were started. -/
theorem C125_violated_every_racing (as : List MultiAct) (s : MC) (h : MC.run true as {} = some s) (hn : s.close = .none)
    (hc : (∃ n, s.consume = .making n ∧ s.consumers ≠ []) ∨ ∃ rest, s.consume = .starting rest ∧ rest ≠ []) (timeout : Bool) :
    (MC.run false (.close :: List.replicate (s.started.length + 1) (.closeStep timeout)) s).map MC.crashed = some true := by
  obtain ⟨h1, -, -, -, h5, h6, -, -, -⟩ := MultiInv.of_run h
  have hs : MC.step false .close s = some { s with closed := true, close := .stopping s.consumers } := by
    simp [MC.step, h1, hn]
  rw [MC.run, hs]
  refine MC.stop_crash timeout _ s.consumers { s with closed := true, close := .stopping s.consumers } h1 rfl ?_ ?_
  · rcases hc with ⟨n, hm, -⟩ | ⟨rest, hm, -⟩
    · have := h5 hn n hm
      simp [this.1, this.2]
    · exact (h6 hn rest hm).2
  · rcases hc with ⟨n, hm, hne⟩ | ⟨rest, hm, hne⟩
    · rw [(h5 hn n hm).1]
      exact List.length_pos_iff.2 hne
    · rw [← (h6 hn rest hm).1, List.length_append]
      have := List.length_pos_iff.2 hne
      omega

/-- making the rest, and starting them all -/
theorem MC.make_all (calm : Bool) : ∀ (n : Nat) (s : MC), s.crashed = false → s.consume = .making n →
    MC.run calm (List.replicate n (.step true 0)) s =
      some { s with consumers := s.consumers ++ List.range' s.made n, made := s.made + n, consume := .making 0 } := by
  intro n
  induction n with
  | zero =>
    intro s _ hm
    simp [MC.run, ← hm]
  | succ n ih =>
    intro s hs hm
    have : MC.step calm (.step true 0) s = some { s with consumers := s.consumers ++ [s.made], made := s.made + 1, consume := .making n } := by
      simp [MC.step, MC.consumeStep, hs, hm]
    rw [List.replicate_succ, MC.run, this]
    refine (ih { s with consumers := s.consumers ++ [s.made], made := s.made + 1, consume := .making n } hs rfl).trans ?_
    simp [List.range'_succ, Nat.add_comm, Nat.add_left_comm]

theorem MC.start_all (calm : Bool) : ∀ (l : List Nat) (s : MC), s.crashed = false → s.consume = .starting l →
    MC.run calm (List.replicate l.length (.step true 0)) s =
      some { s with counter := s.counter + l.length, started := s.started ++ l, consume := .starting [] } := by
  intro l
  induction l with
  | nil =>
    intro s _ hm
    simp [MC.run, ← hm]
  | cons i l ih =>
    intro s hs hm
    have : MC.step calm (.step true 0) s = some { s with counter := s.counter + 1, started := s.started ++ [i], consume := .starting l } := by
      simp [MC.step, MC.consumeStep, hs, hm]
    rw [List.length_cons, List.replicate_succ, MC.run, this]
    refine (ih { s with counter := s.counter + 1, started := s.started ++ [i], consume := .starting l } hs rfl).trans ?_
    simp [Nat.add_comm, Nat.add_left_comm]

theorem MC.stop_all : ∀ (l : List Nat) (s : MC), s.crashed = false → s.close = .stopping l → l.length ≤ s.counter →
    MC.run false (List.replicate (l.length + 1) (.closeStep false)) s =
      some { s with counter := s.counter - l.length, stopped := s.stopped ++ l, close := .waiting } := by
  intro l
  induction l with
  | nil =>
    intro s hs hm _
    simp [MC.run, MC.step, MC.closeNext, hs, hm]
  | cons i l ih =>
    intro s hs hm hl
    have hpos : s.counter ≠ 0 := by
      intro e
      rw [e] at hl
      simp at hl
    have : MC.step false (.closeStep false) s = some { s.stopOne i with close := .stopping l } := by
      simp [MC.step, MC.closeNext, hs, hm]
    rw [List.length_cons, List.replicate_succ, MC.run, this]
    refine (ih { s.stopOne i with close := .stopping l } (by simp [MC.stopOne, hs, hpos]) rfl (by simp [MC.stopOne] at hl ⊢; omega)).trans ?_
    simp only [MC.stopOne, hs, hpos, decide_false, Bool.or_false, List.append_assoc, List.singleton_append, Option.some.injEq, MC.mk.injEq, true_and, and_true]
    omega

/-- **C126 is violated by every `AwaitClose` while `Consume` is making the partition consumers**, before it has made the first: `AwaitClose` returns, and then as many as there are partitions
are made and started, and nobody stops them. -/
theorem C126_violated_every_racing (as : List MultiAct) (s : MC) (h : MC.run true as {} = some s) (hn : s.close = .none) (n : Nat)
    (hc : s.consume = .making n) (he : s.consumers = []) :
    ∃ s1, MC.run false [.close, .closeStep false, .closeStep false] s = some s1 ∧ s1.close = .done ∧ s1.started = [] ∧
      ∃ s2, MC.run false (List.replicate n (.step true 0) ++ (.step true 0 :: List.replicate n (.step true 0))) s1 = some s2 ∧
        s2.close = .done ∧ s2.started = List.range' s.made n ∧ s2.stopped = [] := by
  obtain ⟨h1, -, -, -, h5, -, h7, -, -⟩ := MultiInv.of_run h
  have hst := h5 hn n hc
  have hsp := h7 hn
  refine ⟨{ s with closed := true, close := .done }, ?_, rfl, hst.1, ?_⟩
  · simp [MC.run, MC.step, MC.closeNext, h1, hn, he, hst.2]
  · rw [MC.run_append, MC.make_all false n { s with closed := true, close := .done } h1 hc]
    have e : ({ s with closed := true, close := AwaitAt.done }.consumers : List Nat) = [] := he
    simp only [Option.bind_some, he, List.nil_append]
    rw [MC.run]
    have hs : MC.step false (.step true 0) { s with closed := true, close := .done, consumers := List.range' s.made n, made := s.made + n, consume := .making 0 } =
        some { s with closed := true, close := .done, consumers := List.range' s.made n, made := s.made + n, consume := .starting (List.range' s.made n) } := by
      simp [MC.step, MC.consumeStep, h1]
    rw [hs]
    have hl : (List.range' s.made n).length = n := List.length_range'
    have := MC.start_all false (List.range' s.made n)
      { s with closed := true, close := .done, consumers := List.range' s.made n, made := s.made + n, consume := .starting (List.range' s.made n) } h1 rfl
    rw [hl] at this
    refine ⟨_, this, rfl, ?_, hsp⟩
    simp [hst.1]

/-- **C126 is violated by every second `Consume`**: the partition consumers of the first, if there are any, are forgotten. `AwaitClose` stops those of the second only, and waits for the
others until its timeout. -/
theorem C126_violated_every_twice (as : List MultiAct) (s : MC) (h : MC.run true as {} = some s) (hn : s.close = .none) (hc : s.consume = .idle)
    (hne : s.consumers ≠ []) (n : Nat) :
    ∃ s', MC.run false ([.consume, .step true 0, .step true n] ++ List.replicate n (.step true 0) ++ [.step true 0] ++ List.replicate n (.step true 0) ++ [.step true 0, .close] ++
        List.replicate (n + 1) (.closeStep false)) s = some s' ∧
      s'.close = .waiting ∧ s'.closeNext false = none ∧ s'.started = s.consumers ++ List.range' s.made n ∧ s'.stopped = List.range' s.made n := by
  obtain ⟨h1, h2, h3, -, -, -, h7, -, -⟩ := MultiInv.of_run h
  have hst := h3 hn hc
  have hsp := h7 hn
  have hcl : s.closed = false := by
    cases hx : s.closed with
    | false => rfl
    | true => exact absurd hn (h2.1 hx)
  have hl : (List.range' s.made n).length = n := List.length_range'
  -- up to making
  have r1 : MC.run false [.consume, .step true 0, .step true n] s = some { s with consumers := [], consume := .making n } := by
    simp [MC.run, MC.step, MC.consumeStep, h1, hc, hcl]
  have r2 := MC.make_all false n { s with consumers := [], consume := .making n } h1 rfl
  have r3 : MC.run false [.step true 0] { s with consumers := [] ++ List.range' s.made n, made := s.made + n, consume := .making 0 } =
      some { s with consumers := List.range' s.made n, made := s.made + n, consume := .starting (List.range' s.made n) } := by
    simp [MC.run, MC.step, MC.consumeStep, h1]
  have r4 := MC.start_all false (List.range' s.made n)
    { s with consumers := List.range' s.made n, made := s.made + n, consume := .starting (List.range' s.made n) } h1 rfl
  rw [hl] at r4
  have r5 : MC.run false [.step true 0, .close] { s with consumers := List.range' s.made n, made := s.made + n, counter := s.counter + n, started := s.started ++ List.range' s.made n, consume := .starting [] } =
      some { s with closed := true, consumers := List.range' s.made n, made := s.made + n, counter := s.counter + n,
                    started := s.started ++ List.range' s.made n, consume := .idle, close := .stopping (List.range' s.made n), returned := some true } := by
    simp [MC.run, MC.step, MC.consumeStep, h1, hn]
  have r6 := MC.stop_all (List.range' s.made n) { s with closed := true, consumers := List.range' s.made n, made := s.made + n, counter := s.counter + n, started := s.started ++ List.range' s.made n, consume := .idle, close := .stopping (List.range' s.made n), returned := some true } h1 rfl (by simp)
  rw [hl] at r6
  refine ⟨_, MC.run_chain (MC.run_chain (MC.run_chain (MC.run_chain (MC.run_chain r1 r2) r3) r4) r5) r6, ?_⟩
  · refine ⟨rfl, ?_, ?_, ?_⟩
    · simp [MC.closeNext, hst.2, hne]
    · simp [hst.1]
    · simp [hsp]

/-- after `AwaitClose` of a consumer of two partitions, which has returned -/
example : ∃ s, MC.run true (consumeTwo ++ [.close, .closeStep false, .closeStep false, .closeStep false, .closeStep false]) {} = some s ∧ s.close = .done ∧ s.consumers = [0, 1] :=
  ⟨_, rfl, by decide, by decide⟩

/-- while one of two partition consumers is started -/
example : ∃ s, MC.run true [.consume, .step true 0, .step true 2, .step true 0, .step true 0, .step true 0, .step true 0] {} = some s ∧ s.close = .none ∧ s.consume = .starting [1] :=
  ⟨_, rfl, by decide, by decide⟩

/-- before the first of two partition consumers is made -/
example : ∃ s, MC.run true [.consume, .step true 0, .step true 2] {} = some s ∧ s.close = .none ∧ s.consume = .making 2 ∧ s.consumers = [] :=
  ⟨_, rfl, by decide, by decide, by decide⟩

/-- while two run -/
example : ∃ s, MC.run true consumeTwo {} = some s ∧ s.close = .none ∧ s.consume = .idle ∧ s.consumers = [0, 1] :=
  ⟨_, rfl, by decide, by decide, by decide⟩

/-! ## C63: many partitions of one topic -/

theorem flatMap_map_length_ge {α β : Type} (g : β → Bytes) (k : α → β) (n : Nat) (xs : List α) (h : ∀ x, n ≤ (g (k x)).length) :
    n * xs.length ≤ ((xs.map k).flatMap g).length := by
  induction xs with
  | nil => simp
  | cons x xs ih =>
    have := h x
    rw [List.map_cons, List.flatMap_cons, List.length_append, List.length_cons, Nat.mul_succ]
    omega

/-- **C63 is violated for every topic** of which enough partitions are asked for: the buffer has room for one. (The bound is that for version 0; in version 10 four partitions of a short name are too many, `C63_violated_many`.) -/
theorem C63_violated_every_many (r : FetchRequest) (name : Bytes) (ps : List PartitionBlock) (ht : r.topics = [(name, ps)]) (hf : r.forgotten = []) (v : UInt16)
    (hv : v ∈ clientVersions API_FetchRequest) (w : UInt16) (corr : UInt32) (cid : Option Bytes)
    (hn : 108 + (hdr .fetch v corr cid).length + name.length < 16 * ps.length) :
    r.encode (reqHeader API_FetchRequest w corr cid) v ≠ .ok (Kafka.request .fetch v.toNat corr.toNat cid (r.wire v)) := by
  rw [Ne, C63_fetch_partial r v hv, fetch_length_eq, ht, hf]
  show ¬ 4 + _ + (r.wire' v.toNat).length ≤ _
  have h1 := flatMap_map_length_ge (fetchBlockWire v.toNat) PartitionBlock.wire 16 ps (fun p => by
    unfold fetchBlockWire
    simp only [List.length_append, int32_length, int64_length]
    omega)
  have h2 : 22 + name.length + 16 * ps.length ≤ (r.wire' v.toNat).length := by
    unfold FetchRequest.wire'
    rw [ht]
    simp only [List.length_append, int32_length, array_length, List.map_cons, List.map_nil, List.flatMap_cons, List.flatMap_nil, List.length_nil]
    unfold fetchTopicBytes fetchTopicWire
    rw [List.length_append, string_length, array_length]
    simp only
    omega
  simp only [List.map_cons, List.map_nil, List.sum_cons, List.sum_nil]
  omega

example : 108 + (hdr .fetch 0 7 (some [99])).length + 1 < 16 * (List.replicate 8 (⟨0, 0, 0, 0, 1024⟩ : PartitionBlock)).length := by decide +kernel

/-! ## C82: compressed messages -/

theorem Cur.bind_inv {α β : Type} {m : Cur α} {f : α → Cur β} {p : Bytes} {off : Int} {r : β × Int} (h : (m >>= f) p off = .ok r) :
    ∃ a off', m p off = .ok (a, off') ∧ f a p off' = .ok r := by
  have e : (m >>= f) p off = (match m p off with
    | .ok (a, off') => f a p off'
    | .err e => .err e
    | .panic => .panic) := rfl
  rw [e] at h
  rcases hm : m p off with ⟨a, off'⟩ | _ | _
  · rw [hm] at h
    exact ⟨a, off', rfl, h⟩
  · rw [hm] at h
    cases h
  · rw [hm] at h
    cases h

theorem rdLegacyMessage_offset {p : Bytes} {off off' : Int} {m : Message} (h : rdLegacyMessage p off = .ok (m, off')) : ∃ o, rdI64 p off = .ok (m.offset, o) := by
  unfold rdLegacyMessage at h
  obtain ⟨a, o, h1, h⟩ := Cur.bind_inv h
  obtain ⟨_, _, _, h⟩ := Cur.bind_inv h
  obtain ⟨_, _, _, h⟩ := Cur.bind_inv h
  obtain ⟨_, _, _, h⟩ := Cur.bind_inv h
  obtain ⟨_, _, _, h⟩ := Cur.bind_inv h
  obtain ⟨_, _, _, h⟩ := Cur.bind_inv h
  obtain ⟨_, _, _, h⟩ := Cur.bind_inv h
  obtain ⟨_, _, _, h⟩ := Cur.bind_inv h
  cases h
  exact ⟨o, h1⟩

/-- no offset of a partition has this form: none is negative, and none is as large as 2^56 -/
def FarOff (o : Int64) : Prop := o.toInt < 0 ∨ 2 ^ 56 ≤ o.toInt

theorem rdI64_far (x : UInt8) (hx : x ≠ 0) (t : Bytes) (o : Int64) (off : Int) (h : rdI64 (x :: t) 0 = .ok (o, off)) : FarOff o := by
  unfold rdI64 rdU64 at h
  obtain ⟨u, o1, h1, h⟩ := Cur.bind_inv h
  obtain ⟨n, o2, h2, h1⟩ := Cur.bind_inv h1
  cases h
  cases h1
  unfold Cur.call sliceFrom beGet at h2
  rw [if_pos ⟨Int.le_refl 0, Int.natCast_nonneg _⟩] at h2
  simp only [Int.toNat_zero, List.drop_zero] at h2
  split at h2
  · rename_i a k hs
    split at hs
    · rename_i hl
      cases hs
      cases h2
      obtain ⟨b1, b2, b3, b4, b5, b6, b7, u, rfl⟩ : ∃ b1 b2 b3 b4 b5 b6 b7 u, t = b1 :: b2 :: b3 :: b4 :: b5 :: b6 :: b7 :: u := by
        match t, hl with
        | b1 :: b2 :: b3 :: b4 :: b5 :: b6 :: b7 :: u, _ => exact ⟨_, _, _, _, _, _, _, _, rfl⟩
      have e : beVal ((x :: b1 :: b2 :: b3 :: b4 :: b5 :: b6 :: b7 :: u).take 8) =
          ((((((x.toNat * 256 + b1.toNat) * 256 + b2.toNat) * 256 + b3.toNat) * 256 + b4.toNat) * 256 + b5.toNat) * 256 + b6.toNat) * 256 + b7.toNat := by
        simp [beVal]
      rw [e]
      have hx1 : 1 ≤ x.toNat := by
        have : x.toNat ≠ 0 := fun e => hx (UInt8.toNat_inj.1 (by simpa using e))
        omega
      have := x.toNat_lt; have := b1.toNat_lt; have := b2.toNat_lt; have := b3.toNat_lt; have := b4.toNat_lt
      have := b5.toNat_lt; have := b6.toNat_lt; have := b7.toNat_lt
      generalize hv : ((((((x.toNat * 256 + b1.toNat) * 256 + b2.toNat) * 256 + b3.toNat) * 256 + b4.toNat) * 256 + b5.toNat) * 256 + b6.toNat) * 256 + b7.toNat = v
      have h1 : 2 ^ 56 ≤ v := by omega
      have h2 : v < 2 ^ 64 := by omega
      have h3 : (UInt64.ofNat v).toInt64.toInt = (v : Int).bmod (2 ^ 64) := by
        show ((UInt64.ofNat v).toBitVec).toInt = _
        rw [BitVec.toInt_eq_toNat_bmod]
        congr 1
        simp [UInt64.ofNat, Nat.mod_eq_of_lt h2]
      unfold FarOff
      rw [h3, Int.bmod_def]
      split <;> omega
    · cases hs
  · cases h2
  · cases h2

theorem decodeMessagesFrom_far (compress : Compress) (hz : ∀ c b z, compress c b = .ok z → ∃ x t, z = x :: t ∧ x ≠ 0) :
    ∀ (fuel : Nat) (x : UInt8) (t : Bytes) (ms : List Message), x ≠ 0 → decodeMessagesFrom compress fuel (x :: t) 0 = .ok ms →
      ∃ a as, ms = a :: as ∧ FarOff a.offset := by
  intro fuel
  induction fuel with
  | zero => intro x t ms _ h; cases h
  | succ fuel ih =>
    intro x t ms hx h
    unfold decodeMessagesFrom at h
    rw [if_neg (by simp; omega)] at h
    rcases hm : rdLegacyMessage (x :: t) 0 with ⟨m, off⟩ | _ | _
    · rw [hm] at h
      simp only at h
      obtain ⟨o, ho⟩ := rdLegacyMessage_offset hm
      have hfar := rdI64_far x hx t _ _ ho
      split at h
      · split at h
        · cases h
          exact ⟨m, _, rfl, hfar⟩
        · cases h
        · cases h
      · rcases hd : m.decompress compress with v | _ | _
        · rw [hd] at h
          simp only at h
          obtain ⟨y, u, rfl, hy⟩ := hz _ _ _ hd
          rcases hi : decodeMessagesFrom compress fuel (y :: u) 0 with inner | _ | _
          · rw [hi] at h
            simp only at h
            obtain ⟨a, as, rfl, ha⟩ := ih y u inner hy hi
            split at h
            · cases h
              exact ⟨a, _, rfl, ha⟩
            · cases h
            · cases h
          · rw [hi] at h; cases h
          · rw [hi] at h; cases h
        · rw [hd] at h; cases h
        · rw [hd] at h; cases h
    · rw [hm] at h; cases h
    · rw [hm] at h; cases h

/-- **C82 is violated for every compressed message**, with every codec whose output is never empty and never begins with a zero byte, such as gzip (1f), snappy (the length, or 82) and lz4 (04):
what is decoded for it, if decoding does not fail, begins with a message of an offset no message in it can have. -/
theorem C82_violated_every_compressed (compress : Compress) (hz : ∀ c b z, compress c b = .ok z → ∃ x t, z = x :: t ∧ x ≠ 0)
    (m : Kafka.LegacyMessage) (hm : LegacyFits m) (hc : Int8.ofInt m.attributes &&& 7 ≠ 0) (rest : Bytes) (fuel : Nat) (ms : List Message)
    (h : decodeToMessageSet compress fuel (Kafka.legacyMessage m ++ rest) = .ok ms) :
    (∃ a as, ms = a :: as ∧ FarOff a.offset) ∧
      ∀ inner : List Kafka.LegacyMessage, inner ≠ [] → (∀ i ∈ inner, 0 ≤ i.offset ∧ i.offset < 2 ^ 56) → ∀ more, ms ≠ inner.map goMessage ++ more := by
  have key : ∃ a as, ms = a :: as ∧ FarOff a.offset := by
    unfold decodeToMessageSet at h
    cases fuel with
    | zero => cases h
    | succ fuel =>
      have hr := creads_legacyMessage m hm [] rest
      unfold decodeMessagesFrom at h
      have hpos := legacyMessage_pos m
      rw [if_neg (by rw [List.length_append]; omega)] at h
      simp only [List.nil_append, List.length_nil] at hr
      rw [show ((0 : Nat) : Int) = 0 from rfl] at hr
      rw [hr] at h
      simp only at h
      rw [if_neg (show ¬ (goMessage m).attributes &&& 7 = 0 from hc)] at h
      rcases hd : (goMessage m).decompress compress with v | _ | _
      · rw [hd] at h
        simp only at h
        obtain ⟨y, u, rfl, hy⟩ := hz _ _ _ hd
        rcases hi : decodeMessagesFrom compress fuel (y :: u) 0 with inner | _ | _
        · rw [hi] at h
          simp only at h
          obtain ⟨a, as, rfl, ha⟩ := decodeMessagesFrom_far compress hz fuel y u inner hy hi
          split at h
          · cases h
            exact ⟨a, _, rfl, ha⟩
          · cases h
          · cases h
        · rw [hi] at h; cases h
        · rw [hi] at h; cases h
      · rw [hd] at h; cases h
      · rw [hd] at h; cases h
  refine ⟨key, fun inner hne hin more e => ?_⟩
  obtain ⟨a, as, rfl, ha⟩ := key
  cases inner with
  | nil => exact hne rfl
  | cons i is =>
    simp only [List.map_cons, List.cons_append, List.cons.injEq] at e
    have ho := hin i (by simp)
    rw [e.1] at ha
    have : (goMessage i).offset.toInt = i.offset := by
      show (Int64.ofInt i.offset).toInt = _
      rw [Int64.toInt_ofInt, Int.bmod_eq_of_le] <;> simp [Int64.size] <;> omega
    rcases ha with h1 | h1 <;> omega

/-- a codec for which decoding does not fail -/
example : (decodeToMessageSet (fun _ _ => .ok (Kafka.legacyMessage { offset := 2 ^ 60, magic := 0, attributes := 0, timestamp := 0, key := none, value := some [7] })) 4
    (Kafka.legacyMessage (wrapperMessage 1 [1, 2, 3]))).okAnd (fun ms => decide (ms.map Message.offset = [1152921504606846976])) = true := by decide +kernel

example : Kafka.legacyMessage { offset := 2 ^ 60, magic := 0, attributes := 0, timestamp := 0, key := none, value := some [7] } =
    16 :: (Kafka.legacyMessage { offset := 0, magic := 0, attributes := 0, timestamp := 0, key := none, value := some [7] }).tail := by decide +kernel

end Healer
