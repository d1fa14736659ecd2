import Verif.Model.GroupTools
import Verif.Props.Client
import Verif.Props.Always9

/-!
# C170: the tools for groups
-/

namespace Healer

open Brokers

variable {W : Type}

/-! ## What is required -/

/-- No two nodes have objects with the same number in them. -/
def ApartIds (b : Brokers W) : Prop := ∀ n n' x x', b.cache.get n = some x → b.cache.get n' = some x' → x.2 = x'.2 → n = n'

/-- The objects have the number of their node in them, or are those made with -1 for the first server of the bootstrap list which answered, kept for one node `k`. -/
def OneBootstrap (k : Int32) (b : Brokers W) : Prop := ∀ n x, b.cache.get n = some x → x.2 = n ∨ (x.2 = -1 ∧ n = k)

/-! ## list-groups -/

theorem ApartIds.of_grows {b b' : Brokers W} (h : ApartIds b') (hg : Grows b b') : ApartIds b :=
  fun n n' x x' h1 h2 h3 => h n n' x x' (hg.cache _ _ h1) (hg.cache _ _ h2) h3

theorem listGroupsLoop_grows' (net : Net W) (is : List BrokerInfo) (acc : AMap Int32 (List ListedGroup)) (b : Brokers W) :
    Grows b (listGroupsLoop net is acc b).2 := by
  induction is generalizing acc b with
  | nil => exact .refl b
  | cons i is ih =>
    unfold listGroupsLoop
    have h1 := getBroker_grows net i.nodeID b
    revert h1
    rcases getBroker net i.nodeID b with ⟨_ | h, b1⟩ <;> intro h1
    · exact h1
    · have h2 := (askListGroups_looks net h.1 b1).grows
      simp only
      revert h2
      rcases askListGroups net h.1 b1 with ⟨⟨_ | r, _ | e⟩, b2⟩ <;> intro h2
      · exact h1.trans h2
      · exact h1.trans h2
      · exact (h1.trans h2).trans (ih _ _)
      · exact h1.trans h2

/-- Each node was asked, and what its broker listed is in the result. -/
theorem listGroupsLoop_all (net : Net W) (hn : ∀ k w, (net.listGroups k w).1 ≠ (none, none)) :
    ∀ (is : List BrokerInfo) (acc : AMap Int32 (List ListedGroup)) (b b' : Brokers W) (m : AMap Int32 (List ListedGroup)) (seen : List Int32),
    listGroupsLoop net is acc b = ((m, none), b') → ApartIds b' → (seen ++ is.map BrokerInfo.nodeID).Nodup →
    (∀ n gs, acc.get n = some gs → ∃ k ∈ seen, ∃ x, b.cache.get k = some x ∧ x.2 = n) →
    (∀ n gs, acc.get n = some gs → m.get n = some gs) ∧
    ∀ i ∈ is, ∃ x r, b'.cache.get i.nodeID = some x ∧ .listGroups x.1 (some r, none) ∈ b'.log ∧ (r.groups ≠ [] → m.get x.2 = some r.groups) := by
  intro is
  induction is with
  | nil =>
    intro acc b b' m seen h _ _ _
    cases h
    exact ⟨fun _ _ h => h, fun i hi => by cases hi⟩
  | cons i is ih =>
    intro acc b b' m seen h hap hnd hacc
    unfold listGroupsLoop at h
    have h1 := getBroker_spec net i.nodeID b
    revert h
    rcases hg : getBroker net i.nodeID b with ⟨_ | x, b1⟩ <;> intro h
    · cases h
    · rw [hg] at h1
      obtain ⟨h1, h0⟩ := h1
      have h0 := h0 x rfl
      simp only at h h1 h0
      have hl := askListGroups_looks net x.1 b1
      have hne := hn x.1 b1.world
      have ha : (askListGroups net x.1 b1).1 = (net.listGroups x.1 b1.world).1 := rfl
      have hlog : .listGroups x.1 (askListGroups net x.1 b1).1 ∈ (askListGroups net x.1 b1).2.log := by simp [askListGroups]
      revert h hl ha hlog
      rcases askListGroups net x.1 b1 with ⟨⟨_ | r, _ | e⟩, b2⟩ <;> intro h hl ha hlog
      · exact absurd ha.symm hne
      · cases h
      · simp only at h hlog
        have hgr := listGroupsLoop_grows' net is (if r.groups = [] then acc else acc.set x.2 r.groups) b2
        rw [h] at hgr
        have hgb : Grows b b2 := h1.trans hl.grows
        have hx2 : b2.cache.get i.nodeID = some x := by rw [hl.cache]; exact h0
        have hfresh : ∀ gs, acc.get x.2 ≠ some gs := by
          intro gs he
          obtain ⟨k, hk, y, hy, hyx⟩ := hacc _ _ he
          have := hap k i.nodeID y x (hgr.cache _ _ (hgb.cache _ _ hy)) (hgr.cache _ _ hx2) hyx
          subst this
          rw [List.map_cons, List.nodup_append] at hnd
          exact hnd.2.2 _ hk _ (by simp) rfl
        obtain ⟨i1, i2⟩ := ih _ b2 b' m (seen ++ [i.nodeID]) h hap (by simpa using hnd) (by
          intro n gs hgs
          split at hgs
          · obtain ⟨k, hk, y, hy, hyx⟩ := hacc _ _ hgs
            exact ⟨k, by simp [hk], y, hgb.cache _ _ hy, hyx⟩
          · rw [AMap.get_set] at hgs
            split at hgs
            · rename_i hnx
              exact ⟨i.nodeID, by simp, x, hx2, hnx.symm⟩
            · obtain ⟨k, hk, y, hy, hyx⟩ := hacc _ _ hgs
              exact ⟨k, by simp [hk], y, hgb.cache _ _ hy, hyx⟩)
        refine ⟨fun n gs hgs => i1 n gs ?_, fun j hj => ?_⟩
        · split
          · exact hgs
          · rw [AMap.get_set]
            split
            · rename_i hnx
              rw [hnx] at hgs
              exact absurd hgs (hfresh gs)
            · exact hgs
        · rcases List.mem_cons.1 hj with rfl | hj
          · obtain ⟨ext, he⟩ := hgr.log
            refine ⟨x, r, hgr.cache _ _ hx2, by rw [he]; exact List.mem_append_left _ hlog, fun hrg => i1 _ _ ?_⟩
            rw [if_neg hrg, AMap.get_set, if_pos rfl]
          · exact i2 j hj
      · cases h

theorem Looks.oneBootstrap {k : Int32} {b b' : Brokers W} (h : Looks b b') (hc : OneBootstrap k b) : OneBootstrap k b' := by
  intro n x hx
  rw [h.cache] at hx
  exact hc n x hx

theorem getBroker_oneBootstrap (net : Net W) (k n : Int32) (b : Brokers W) (hi : InfosOk b.infos) (h : OneBootstrap k b) :
    OneBootstrap k (getBroker net n b).2 ∧ ∀ m x, (getBroker net n b).2.cache.get m = some x → m = n ∨ b.cache.get m = some x := by
  unfold getBroker
  cases hc : b.cache.get n with
  | some x => exact ⟨h, fun m x hx => .inr hx⟩
  | none =>
    simp only
    have h1 := (ensureKnown_looks net n b).infos hi
    have h2 := (ensureKnown_looks net n b).oneBootstrap h
    have h2c := (ensureKnown_looks net n b).cache
    generalize ensureKnown net n b = b1 at h1 h2 h2c
    unfold createBroker
    cases hg : b1.infos.get n with
    | none => exact ⟨h2, fun m x hx => .inr (by rw [← h2c]; exact hx)⟩
    | some i =>
      have hn : i.nodeID = n := h1.key (n, i) (AMap.mem_of_get_eq_some _ _ _ hg)
      simp only
      have h3 := (connect_looks net i.netAddress i.nodeID b1).oneBootstrap h2
      have h3c := (connect_looks net i.netAddress i.nodeID b1).cache
      revert h3 h3c
      rcases Brokers.connect net i.netAddress i.nodeID b1 with ⟨_ | x, b2⟩ <;> intro h3 h3c
      · exact ⟨h3, fun m x hx => .inr (by rw [← h2c, ← h3c]; exact hx)⟩
      · constructor
        · intro m y hy
          change (b2.cache.set n (x, i.nodeID)).get m = some y at hy
          rw [AMap.get_set] at hy
          split at hy
          · cases hy
            rename_i hm
            exact .inl (hn.trans hm.symm)
          · exact h3 m y hy
        · intro m y hy
          change (b2.cache.set n (x, i.nodeID)).get m = some y at hy
          rw [AMap.get_set] at hy
          split at hy
          · exact .inl ‹_›
          · exact .inr (by rw [← h2c, ← h3c]; exact hy)

theorem listGroupsLoop_oneBootstrap (net : Net W) (k : Int32) (is : List BrokerInfo) (acc : AMap Int32 (List ListedGroup)) (b : Brokers W) (hi : InfosOk b.infos)
    (h : OneBootstrap k b) : OneBootstrap k (listGroupsLoop net is acc b).2 ∧
      ∀ m x, (listGroupsLoop net is acc b).2.cache.get m = some x → (∃ i ∈ is, i.nodeID = m) ∨ b.cache.get m = some x := by
  induction is generalizing acc b with
  | nil => exact ⟨h, fun m x hx => .inr hx⟩
  | cons i is ih =>
    unfold listGroupsLoop
    have h0 := getBroker_grows net i.nodeID b
    have h1 := getBroker_oneBootstrap net k i.nodeID b hi h
    revert h0 h1
    rcases getBroker net i.nodeID b with ⟨_ | x, b1⟩ <;> intro h0 ⟨h1, h1c⟩
    · exact ⟨h1, fun m x hx => (h1c m x hx).imp (fun e => ⟨i, .head _, e.symm⟩) id⟩
    · have hl := askListGroups_looks net x.1 b1
      simp only
      revert hl
      rcases askListGroups net x.1 b1 with ⟨⟨_ | r, _ | e⟩, b2⟩ <;> intro hl
      all_goals
        have hb : ∀ m x, b2.cache.get m = some x → m = i.nodeID ∨ b.cache.get m = some x := fun m x hx => h1c m x (by rw [← hl.cache]; exact hx)
      · exact ⟨hl.oneBootstrap h1, fun m x hx => (hb m x hx).imp (fun e => ⟨i, .head _, e.symm⟩) id⟩
      · exact ⟨hl.oneBootstrap h1, fun m x hx => (hb m x hx).imp (fun e => ⟨i, .head _, e.symm⟩) id⟩
      · obtain ⟨j1, j2⟩ := ih (if r.groups = [] then acc else acc.set x.2 r.groups) b2 (hl.infos (h0.infos hi)) (hl.oneBootstrap h1)
        refine ⟨j1, fun m y hy => ?_⟩
        rcases j2 m y hy with ⟨j, hj, he⟩ | hc
        · exact .inl ⟨j, .tail _ hj, he⟩
        · exact (hb m y hc).imp (fun e => ⟨i, .head _, e.symm⟩) id
      · exact ⟨hl.oneBootstrap h1, fun m x hx => (hb m x hx).imp (fun e => ⟨i, .head _, e.symm⟩) id⟩

/-- Node numbers are not -1, hence the numbers in the objects differ. -/
theorem OneBootstrap.apart {k : Int32} {b : Brokers W} (h : OneBootstrap k b) (hm : b.cache.get (-1) = none) : ApartIds b := by
  intro n n' x x' h1 h2 h3
  rcases h n x h1 with e | ⟨e, f⟩ <;> rcases h n' x' h2 with e' | ⟨e', f'⟩
  · exact e.symm.trans (h3.trans e')
  · rw [← e, h3, e', hm] at h1
    cases h1
  · rw [← e', ← h3, e, hm] at h2
    cases h2
  · exact f.trans f'.symm

/-- **C170, list-groups.** If the tool succeeds, it has asked the broker of every node known, and each group that broker listed is in the result. (As after
`NewBrokers`: at most one node, `k`, has the object of a bootstrap server, with -1 in it for its number, and no node has that number. Without an answer there is an error.)
Missing: brokers which refuse the request (`C170_violated_every_refusal`). -/
theorem C170_list_partial (net : Net W) (hn : ∀ k w, (net.listGroups k w).1 ≠ (none, none)) (b b' : Brokers W) (m : AMap Int32 (List ListedGroup)) (hi : InfosOk b.infos)
    (k : Int32) (hk : OneBootstrap k b) (hb : b.infos.get (-1) = none) (hc : b.cache.get (-1) = none) (h : listGroupsCmd net b = (.ok m, b')) :
    ∀ n i, b.infos.get n = some i → ∃ x r, b'.cache.get n = some x ∧ .listGroups x.1 (some r, none) ∈ b'.log ∧
      ∀ g ∈ r.groups, ∃ gs, m.get x.2 = some gs ∧ g ∈ gs := by
  unfold listGroupsCmd at h
  rcases hl : listGroups net b with ⟨⟨m', _ | e⟩, b1⟩
  · rw [hl] at h
    cases h
    unfold listGroups order at hl
    simp only at hl
    have hp := net.shuffle_perm (b.infos.map Prod.snd) b.world
    have hnd : ((net.shuffle (b.infos.map Prod.snd) b.world).1.map BrokerInfo.nodeID).Nodup := by
      rw [(hp.map BrokerInfo.nodeID).nodup_iff]
      have : (b.infos.map Prod.snd).map BrokerInfo.nodeID = b.infos.keys := by
        rw [List.map_map]
        exact List.map_congr_left fun e he => hi.key e he
      rw [this]
      exact hi.nodup
    have ho := listGroupsLoop_oneBootstrap net k (net.shuffle (b.infos.map Prod.snd) b.world).1 [] { b with world := (net.shuffle (b.infos.map Prod.snd) b.world).2 } hi hk
    rw [hl] at ho
    have ha : ApartIds b' := by
      refine ho.1.apart ?_
      cases hx : b'.cache.get (-1) with
      | none => rfl
      | some x =>
        rcases ho.2 (-1) x hx with ⟨j, hj, he⟩ | hx
        · obtain ⟨e, he', rfl⟩ := List.mem_map.1 (hp.mem_iff.1 hj)
          have hke : e.1 = -1 := (hi.key e he').symm.trans he
          have := (AMap.get_eq_none_iff _ _).1 hb
          exact absurd (List.mem_map.2 ⟨e, he', hke⟩) this
        · rw [hc] at hx
          cases hx
    intro n i hni
    have hmem := AMap.mem_of_get_eq_some _ _ _ hni
    have hin : i.nodeID = n := hi.key _ hmem
    obtain ⟨x, r, h1, h2, h3⟩ := (listGroupsLoop_all net hn _ _ _ _ _ [] hl ha (by simpa using hnd) (fun n gs hgs => by cases hgs)).2 i
      (hp.mem_iff.2 (List.mem_map.2 ⟨_, hmem, rfl⟩))
    rw [hin] at h1
    refine ⟨x, r, h1, h2, fun g hg => ⟨r.groups, h3 ?_, hg⟩⟩
    rintro e
    rw [e] at hg
    cases hg
  · rw [hl] at h
    cases h

example : InfosOk (demoBrokers goodNet).infos ∧ OneBootstrap 1 (demoBrokers goodNet) ∧ (demoBrokers goodNet).infos.get (-1) = none ∧ (demoBrokers goodNet).cache.get (-1) = none ∧
    (listGroupsCmd goodNet (demoBrokers goodNet)).1.toOption.map (fun m => m.map fun e => (e.1, e.2.map ListedGroup.groupID)) = some [(2, [[103]]), (-1, [[103]])] := by
  have hi : (demoBrokers goodNet).infos = [(1, demoInfo 1 97), (2, demoInfo 2 98)] := by decide +kernel
  have hc : (demoBrokers goodNet).cache = [(1, (0, -1))] := by decide +kernel
  refine ⟨by rw [hi]; exact ⟨by decide, by decide⟩, ?_, by rw [hi]; decide, by rw [hc]; decide, by decide +kernel⟩
  intro n x hx
  rw [hc] at hx
  have := AMap.mem_of_get_eq_some _ _ _ hx
  simp only [List.mem_singleton, Prod.mk.injEq] at this
  obtain ⟨rfl, rfl⟩ := this
  exact .inr ⟨rfl, rfl⟩

/-- Brokers which answer at all make the loop succeed, and an answer without groups leaves no trace. -/
theorem listGroupsLoop_answers (net : Net W) (b0 : Brokers W) (h : Nat × Int32) (hr : ∀ w, ∃ r, (net.listGroups h.1 w).1 = (some r, none) ∧ r.groups = [])
    (hc : ∀ n x, b0.cache.get n = some x → (∀ w, ∃ r, (net.listGroups x.1 w).1 = (some r, none)) ∧ (x.2 = h.2 → x = h)) :
    ∀ (is : List BrokerInfo) (acc : AMap Int32 (List ListedGroup)) (b : Brokers W), b.cache = b0.cache → (∀ i ∈ is, ∃ x, b.cache.get i.nodeID = some x) →
    acc.get h.2 = none → ∃ m b', listGroupsLoop net is acc b = ((m, none), b') ∧ m.get h.2 = none := by
  intro is
  induction is with
  | nil => exact fun acc b _ _ ha => ⟨acc, b, rfl, ha⟩
  | cons i is ih =>
    intro acc b hb hk ha
    obtain ⟨x, hx⟩ := hk i (.head _)
    have hg : getBroker net i.nodeID b = (.ok x, b) := by
      unfold getBroker
      rw [hx]
    obtain ⟨hans, hid⟩ := hc i.nodeID x (by rw [← hb]; exact hx)
    obtain ⟨r, hrr⟩ := hans b.world
    have ha1 : (askListGroups net x.1 b).1 = (some r, none) := hrr
    have hl := (askListGroups_looks net x.1 b).cache
    unfold listGroupsLoop
    rw [hg]
    simp only
    revert ha1 hl
    rcases askListGroups net x.1 b with ⟨a, b2⟩
    rintro rfl hl
    simp only
    refine ih _ b2 (hl.trans hb) (fun j hj => ?_) ?_
    · rw [hl]
      exact hk j (.tail _ hj)
    · split
      · exact ha
      · rename_i hne
        rw [AMap.get_set, if_neg, ha]
        intro e
        have hxh := hid e.symm
        subst hxh
        obtain ⟨r', hr1, hr2⟩ := hr b.world
        rw [hrr] at hr1
        cases hr1
        exact hne hr2

/-- **C170 is violated for every cluster** with a broker which refuses to list its groups, with whatever error code: list-groups succeeds all the same, and has nothing of that broker.
(The brokers of all nodes are connected to and answer. A broker which refuses lists no groups.) -/
theorem C170_violated_every_refusal (net : Net W) (code : UInt16) (b : Brokers W) (h : Nat × Int32)
    (hr : ∀ w, ∃ r, (net.listGroups h.1 w).1 = (some r, none) ∧ r.errorCode = code ∧ r.groups = [])
    (hk : ∀ n i, (n, i) ∈ b.infos → ∃ x, b.cache.get i.nodeID = some x)
    (hc : ∀ n x, b.cache.get n = some x → (∀ w, ∃ r, (net.listGroups x.1 w).1 = (some r, none)) ∧ (x.2 = h.2 → x = h)) :
    ∃ m b', listGroupsCmd net b = (.ok m, b') ∧ m.get h.2 = none := by
  have := listGroupsLoop_answers net b h (fun w => (hr w).imp fun r h => ⟨h.1, h.2.2⟩) hc (net.shuffle (b.infos.map Prod.snd) b.world).1 []
    { b with world := (net.shuffle (b.infos.map Prod.snd) b.world).2 } rfl (fun i hi => by
      obtain ⟨e, he, rfl⟩ := List.mem_map.1 ((net.shuffle_perm _ _).mem_iff.1 hi)
      exact hk e.1 e.2 he) rfl
  obtain ⟨m, b', h1, h2⟩ := this
  refine ⟨m, b', ?_, h2⟩
  unfold listGroupsCmd listGroups order
  simp only
  rw [h1]

/-- the broker of object 0 is still loading its groups (error code 14) -/
def loadingNet : Net Nat :=
  { goodNet with listGroups := fun h w => ((some ⟨⟨16, 0, 0, 0, none⟩, 0, if h = 0 then 14 else 0, if h = 0 then [] else [⟨[103], [], [], [], none⟩], none⟩, none), w + 1) }

/-- nodes 1 and 2 are connected to -/
def bothBrokers : Brokers Nat := ⟨[], [(1, demoInfo 1 97), (2, demoInfo 2 98)], [(1, (0, -1)), (2, (5, 2))], 1, 6, []⟩

example : ∃ m b', listGroupsCmd loadingNet bothBrokers = (.ok m, b') ∧ m.get (-1) = none := by
  refine C170_violated_every_refusal loadingNet 14 bothBrokers (0, -1) (fun w => ⟨_, rfl, rfl, rfl⟩) (fun n i hi => ?_) (fun n x hx => ⟨fun w => ⟨_, rfl⟩, ?_⟩)
  · simp only [bothBrokers, List.mem_cons, Prod.mk.injEq, List.not_mem_nil, or_false] at hi
    rcases hi with ⟨rfl, rfl⟩ | ⟨rfl, rfl⟩
    · exact ⟨_, rfl⟩
    · exact ⟨_, rfl⟩
  · have := AMap.mem_of_get_eq_some _ _ _ hx
    simp only [bothBrokers, List.mem_cons, Prod.mk.injEq, List.not_mem_nil, or_false] at this
    rcases this with ⟨rfl, rfl⟩ | ⟨rfl, rfl⟩
    · exact fun _ => rfl
    · exact fun h => absurd h (by decide)

example : (listGroupsCmd loadingNet bothBrokers).1.toOption.map AMap.keys = some [2] := by decide +kernel

/-! ## describe-groups -/

/-- **C170, describe-groups.** The tool sends at most one request, for the group given and no other, to the object kept for the node a broker has named as the coordinator; it prints what
the answer to it has, all of it and without error codes; and without an answer free of errors it prints nothing. -/
theorem C170_describe (net : Net W) (ask : Nat → List Bytes → W → Except Err DescribeGroupsResponse × W) (group : Bytes) (b : Brokers W) :
    ((describeGroupsCmd net ask group b).1.2 = [] ∧ ∃ e, (describeGroupsCmd net ask group b).1.1 = .error e) ∨
    ∃ node k answer, (describeGroupsCmd net ask group b).1.2 = [⟨node, k, [group], answer⟩] ∧ (∃ w, (ask k [group] w).1 = answer) ∧
      (describeGroupsCmd net ask group b).2.coordinatorNamed node ∧ (describeGroupsCmd net ask group b).2.object node = some k ∧
      ∀ gs, (describeGroupsCmd net ask group b).1.1 = .ok gs ↔ ∃ r, answer = .ok r ∧ gs = r.groups ∧ ∀ g ∈ gs, g.errorCode = 0 := by
  unfold describeGroupsCmd
  have hn := findCoordinator_named net group b
  revert hn
  rcases findCoordinator net group b with ⟨e | c, b1⟩ <;> intro hn
  · exact .inl ⟨rfl, e, rfl⟩
  · have hn := hn c rfl
    have hs := getBroker_spec net c.nodeID b1
    simp only at hn ⊢
    revert hs
    rcases getBroker net c.nodeID b1 with ⟨e | h, b2⟩ <;> intro hs
    · exact .inl ⟨rfl, e, rfl⟩
    · right
      have hob : b2.object c.nodeID = some h.1 := by
        rw [Brokers.object, hs.2 h rfl]
        rfl
      have hnm := hn.grows hs.1
      simp only at hnm ⊢
      refine ⟨c.nodeID, h.1, (ask h.1 [group] b2.world).1, ?_, ⟨_, rfl⟩, ?_⟩
      · rcases answerOf DescribeGroupsResponse.error (ask h.1 [group] b2.world).1 with ⟨_ | r, _ | e⟩ <;> rfl
      · rcases ha : (ask h.1 [group] b2.world).1 with e | r
        · exact ⟨hnm, hob, fun gs => ⟨fun h => (by cases h), fun ⟨r, h, _⟩ => (by cases h)⟩⟩
        · have hz : r.error = none ↔ ∀ g ∈ r.groups, g.errorCode = 0 := by
            unfold DescribeGroupsResponse.error
            rw [(C55_first_error _).1]
            simp
          rcases he : r.error with _ | e
          · simp only [answerOf, he]
            refine ⟨hnm, hob, fun gs => ⟨fun h => ?_, fun ⟨r', h, hg, _⟩ => ?_⟩⟩
            · cases h
              exact ⟨r, rfl, rfl, hz.1 he⟩
            · cases h
              rw [hg]
          · simp only [answerOf, he]
            refine ⟨hnm, hob, fun gs => ⟨fun h => ?_, fun ⟨r', h, hg, h0⟩ => ?_⟩⟩
            · cases h
            · cases h
              rw [hg] at h0
              rw [hz.2 h0] at he
              cases he

/-- a broker which knows group "2" only, and is not the coordinator of others -/
def demoDescribe (_ : Nat) (gs : List Bytes) (w : Nat) : Except Err DescribeGroupsResponse × Nat :=
  (.ok ⟨0, gs.map fun g => ⟨if g = [50] then 0 else 16, g, [83], [], [], []⟩⟩, w + 1)

example : (describeGroupsCmd goodNet demoDescribe [50] (demoBrokers goodNet)).1.1.toOption = some [⟨0, [50], [83], [], [], []⟩] ∧
    (describeGroupsCmd goodNet demoDescribe [50] (demoBrokers goodNet)).1.2.map (fun a => (a.node, a.broker, a.groups)) = [(1, 0, [[50]])] ∧
    (describeGroupsCmd goodNet demoDescribe [51] (demoBrokers goodNet)).1.1.toOption = none := by
  refine ⟨by decide +kernel, by decide +kernel, by decide +kernel⟩

/-! ## delete-groups -/

/-- **C170, delete-groups.** What is printed tells of every group given, in this order, that it was deleted: each by a request of its own to the object kept for the node named as its
coordinator, answered without an error. (A broker answers with one result, for the group asked for.) Missing: groups that were deleted before the error that ends the tool
(`C79_violated`). -/
theorem C170_delete_partial (net : Net W) (ask : Nat → Bytes → W → Except Err DeleteGroupsResponse × W) (groups : List Bytes) (b b' : Brokers W)
    (rs : List (Bytes × Int16)) (log : List Client.GroupDone) (hask : ∀ k g w r, (ask k g w).1 = .ok r → r.results.map Prod.fst = [g])
    (h : deleteGroupsCmd net ask groups b = ((.ok rs, log), b')) :
    rs = groups.map (·, 0) ∧ ∃ ds : List GroupDeletion, ds.map GroupDeletion.group = groups ∧ log = ds.flatMap GroupDeletion.log ∧
      ∀ d ∈ ds, b'.coordinatorNamed d.node ∧ ∃ id, b'.cache.get d.node = some (d.broker, id) := by
  unfold deleteGroupsCmd at h
  rcases hd : Client.deleteGroups net ask groups b with ⟨⟨e | rs', log'⟩, b1⟩
  · rw [hd] at h
    cases h
  · rw [hd] at h
    cases h
    obtain ⟨⟨ds, h1, h2, h3, h4⟩, h5⟩ := C79_every_group_partial net ask groups b b' rs log hd
    refine ⟨?_, ds, h1, h2, fun d hd => ⟨(h4 d hd).1, (h4 d hd).2.1⟩⟩
    have h5 := h5 hask
    have hz : ∀ x ∈ rs, x.2 = 0 := by
      intro x hx
      rw [h3] at hx
      obtain ⟨d, hd, hx⟩ := List.mem_flatMap.1 hx
      have he := (h4 d hd).2.2
      unfold DeleteGroupsResponse.error at he
      rw [Option.map_eq_none_iff, (C55_first_error _).1] at he
      exact he _ (List.mem_map.2 ⟨x, hx, rfl⟩)
    rw [← h5, List.map_map]
    refine (List.map_id rs).symm.trans (List.map_congr_left fun x hx => ?_)
    exact Prod.ext rfl (hz x hx)

example : (∀ k g w r, (demoDelete k g w).1 = .ok r → r.results.map Prod.fst = [g]) ∧
    (deleteGroupsCmd goodNet demoDelete [[49], [51]] (demoBrokers goodNet)).1.1.toOption = some [([49], 0), ([51], 0)] :=
  ⟨fun k g w r h => by cases h; rfl, by decide +kernel⟩

end Healer
