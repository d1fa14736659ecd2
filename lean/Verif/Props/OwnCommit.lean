import Verif.Model.OwnCommit
import Verif.Props.Brokers2
import Verif.Props.Follow

/-!
# C152: a consumer with a group commits at the group's coordinator
-/

/-- a group at Kafka's brokers, as far as one partition is concerned -/
structure Kafka.GroupAt where
  coordinator : Int32
  /-- the position stored for the partition -/
  stored : Option Int64

/-- a commit at a node: error 16 is NOT_COORDINATOR -/
def Kafka.GroupAt.commit (g : Kafka.GroupAt) (node : Int32) (o : Int64) : Option Int16 × Kafka.GroupAt :=
  if node = g.coordinator then (none, { g with stored := some o }) else (some 16, g)

namespace Healer

open Brokers

variable {W : Type}

/-- A cluster in which the group has a coordinator that can be reached, known to all who answer; among the known nodes there is one
which answers (`helper`; `good` are its broker objects). -/
structure GroupSettled (net : Net W) (group : Bytes) (node : Int32) (infos : AMap Int32 BrokerInfo) (helper : BrokerInfo) (good : Nat → Prop) : Prop where
  truth : ∀ h w r, (net.coordinator h group w).1 = (r, none) → r.nodeID = node
  answers : ∀ h, good h → ∀ w, ∃ r, (net.coordinator h group w).1 = (r, none)
  known : InfosOk infos
  helperKnown : infos.get helper.nodeID = some helper
  helperUp : ∀ w, ∃ h, (net.connect helper.netAddress helper.nodeID w).1 = .ok h ∧ good h
  coordinatorUp : ∃ i, infos.get node = some i ∧ ∀ w, ∃ h, (net.connect i.netAddress i.nodeID w).1 = .ok h

section

variable {net : Net W} {group : Bytes} {node : Int32} {infos : AMap Int32 BrokerInfo} {helper : BrokerInfo} {good : Nat → Prop}

theorem GroupSettled.loop (hs : GroupSettled net group node infos helper good) : ∀ (is : List BrokerInfo) (b : Brokers W), Aware infos helper good b →
    (∀ i ∈ is, infos.get i.nodeID = some i) → helper ∈ is →
    ∃ r b', coordinatorLoop net group is b = (.ok r, b') ∧ r.nodeID = node ∧ Aware infos helper good b'
  | [], _, _, _, h => by cases h
  | i :: is, b, ha, hk, hm => by
    obtain ⟨h1, h2⟩ := getBroker_aware hs.helperKnown hs.helperUp i (hk i (.head _)) b ha
    unfold coordinatorLoop
    rcases hg : getBroker net i.nodeID b with ⟨e | h, b1⟩
    · rw [hg] at h1 h2
      refine hs.loop is b1 h1 (fun j hj => hk j (.tail _ hj)) ?_
      rcases List.mem_cons.1 hm with e' | hm
      · obtain ⟨_, hh, _⟩ := h2 e'.symm
        cases hh
      · exact hm
    · rw [hg] at h1 h2
      simp only [askCoordinator]
      have haw : ∀ (w : W) l, Aware infos helper good { b1 with world := w, log := l } := fun w l => Aware.mk (b := { b1 with world := w, log := l }) h1.infos h1.cached
      rcases hq : (net.coordinator h.1 group b1.world).1 with ⟨r, _ | e⟩
      · exact ⟨_, _, rfl, hs.truth _ _ _ hq, haw _ _⟩
      · simp only
        refine hs.loop is _ (haw _ _) (fun j hj => hk j (.tail _ hj)) ?_
        rcases List.mem_cons.1 hm with e' | hm
        · obtain ⟨_, hh, hgood⟩ := h2 e'.symm
          cases hh
          obtain ⟨r', hr⟩ := hs.answers _ hgood b1.world
          rw [hq] at hr
          cases hr
        · exact hm

/-- **C152** The constructor finds the group's coordinator in the first round of its loop: the consumer's coordinator is the object which the client
keeps for that node.
Missing: what comes after the group has moved to another coordinator (`C152_violated_moved`, `C152_violated_read`). -/
theorem C152_found_partial (hs : GroupSettled net group node infos helper good) (b : Brokers W) (ha : Aware infos helper good b) (n : Nat) :
    ∃ h b', attach net group (n + 1) b = (some h, b') ∧ b'.cache.get node = some h := by
  have hp := net.shuffle_perm (b.infos.map Prod.snd) b.world
  have hf : ∃ r b', findCoordinator net group b = (.ok r, b') ∧ r.nodeID = node ∧ Aware infos helper good b' := by
    refine hs.loop _ _ ⟨ha.infos, ha.cached⟩ (fun i hi => ?_) (hp.mem_iff.2 ?_)
    · have := hp.mem_iff.1 hi
      rw [ha.infos] at this
      exact hs.known.get this
    · rw [ha.infos]
      exact List.mem_map.2 ⟨_, AMap.mem_of_get_eq_some _ _ _ hs.helperKnown, rfl⟩
  obtain ⟨r, b1, h1, h2, h3⟩ := hf
  obtain ⟨i, hi, hc⟩ := hs.coordinatorUp
  have hk : b1.infos.get node = some i := by rw [h3.infos]; exact hi
  have hok : ∃ h, (getBroker net node b1).1 = .ok h := by
    unfold getBroker
    cases hc' : b1.cache.get node with
    | some h => exact ⟨h, rfl⟩
    | none =>
      simp only [ensureKnown, hk, createBroker]
      unfold Brokers.connect
      obtain ⟨h, hh⟩ := hc b1.world
      rcases hx : net.connect i.netAddress i.nodeID b1.world with ⟨e | h', w⟩
      · rw [hx] at hh; cases hh
      · exact ⟨_, rfl⟩
  obtain ⟨h, hh⟩ := hok
  have hcache := (getBroker_spec net node b1).2 h hh
  refine ⟨h, (getBroker net node b1).2, ?_, hcache⟩
  have : ownCoordinator net group b = (.ok h, (getBroker net node b1).2) := by
    simp only [ownCoordinator, h1, h2]
    rw [← hh]
  simp only [attach, this]

end

/-- what may happen -/
inductive CommitEv where
  /-- the consumer has delivered messages, or its position was reset -/
  | position (o : Int64)
  /-- `CommitOffset` -/
  | commit
  /-- the group gets another coordinator -/
  | moves (node : Int32)

/-- the consumer and the group -/
def Committer.step (s : Committer × Kafka.GroupAt) : CommitEv → Committer × Kafka.GroupAt
  | .position o => ({ s.1 with offset := o }, s.2)
  | .moves n => (s.1, { s.2 with coordinator := n })
  | .commit =>
    (s.1.commit fun n o => ((s.2.commit n o).1.map Err.kafka),
      if s.1.offset = s.1.committed then s.2 else (s.2.commit s.1.coordinator s.1.offset).2)

/-- a history -/
def Committer.run (s : Committer × Kafka.GroupAt) (es : List CommitEv) : Committer × Kafka.GroupAt := es.foldl Committer.step s

/-- the consumer has the group's coordinator, and knows what is stored if it has committed -/
structure Committer.Knows (s : Committer × Kafka.GroupAt) : Prop where
  node : s.1.coordinator = s.2.coordinator
  stored : s.1.committed ≠ 0 → s.2.stored = some s.1.committed

theorem Committer.Knows.step {s : Committer × Kafka.GroupAt} (h : Knows s) (e : CommitEv) (he : ∀ n, e ≠ .moves n) : Knows (step s e) := by
  obtain ⟨c, g⟩ := s
  obtain ⟨h1, h2⟩ := h
  cases e with
  | position o => exact ⟨h1, h2⟩
  | moves n => exact absurd rfl (he n)
  | commit =>
    simp only at h1
    simp only [Committer.step, Committer.commit, Kafka.GroupAt.commit, h1, if_true, Option.map_none]
    split
    · exact ⟨h1, h2⟩
    · exact ⟨rfl, fun _ => rfl⟩

theorem Committer.Knows.run {s : Committer × Kafka.GroupAt} (h : Knows s) (es : List CommitEv) (he : ∀ n, .moves n ∉ es) : Knows (run s es) := by
  induction es generalizing s with
  | nil => exact h
  | cons e es ih =>
    exact ih (h.step e fun n hn => he n (hn ▸ .head _)) fun n hm => he n (.tail _ hm)

/-- While the group stays with the coordinator the consumer has found, each commit stores the position the consumer has.  (0, the position `offsetCommited` starts with, is not
committed by a consumer that has committed nothing else, C40.)
Missing: a group which moves (`C152_violated_moved`). -/
theorem C152_commits_partial (c : Committer) (g : Kafka.GroupAt) (hn : c.coordinator = g.coordinator) (h0 : c.committed = 0)
    (es : List CommitEv) (he : ∀ n, .moves n ∉ es) :
    (Committer.run (c, g) (es ++ [.commit])).2.stored = some (Committer.run (c, g) (es ++ [.commit])).1.offset ∨
    (Committer.run (c, g) (es ++ [.commit])).1.offset = 0 := by
  have hk : Committer.Knows (c, g) := ⟨hn, fun h => absurd h0 h⟩
  have h := hk.run es he
  rw [Committer.run, List.foldl_append]
  change _ ∨ (Committer.step (Committer.run (c, g) es) .commit).1.offset = 0
  generalize hs : Committer.run (c, g) es = s at h
  obtain ⟨c', g'⟩ := s
  obtain ⟨h1, h2⟩ := h
  rw [Committer.run] at hs
  simp only [List.foldl_cons, List.foldl_nil, hs]
  simp only at h1 h2
  simp only [Committer.step, Committer.commit, Kafka.GroupAt.commit, h1, if_true, Option.map_none]
  by_cases hx : c'.offset = c'.committed
  · simp only [hx, if_true]
    by_cases h0 : c'.committed = 0
    · exact .inr h0
    · exact .inl (h2 h0)
  · simp only [hx, if_false]
    exact .inl trivial

/-- **C152 is violated**: once the group is with another coordinator, nothing the consumer does changes the position stored, unless the group comes back to the node where it
was when the consumer was made. -/
theorem C152_violated_moved (c : Committer) (g : Kafka.GroupAt) (hn : c.coordinator ≠ g.coordinator) (es : List CommitEv) (he : .moves c.coordinator ∉ es) :
    (Committer.run (c, g) es).2.stored = g.stored ∧ (Committer.run (c, g) es).1.committed = c.committed := by
  induction es generalizing c g with
  | nil => exact ⟨rfl, rfl⟩
  | cons e es ih =>
    have he' : .moves c.coordinator ∉ es := fun hm => he (.tail _ hm)
    cases e with
    | position o => exact ih { c with offset := o } g hn he'
    | moves n =>
      refine ih c { g with coordinator := n } (fun h => he ?_) he'
      simp only at h
      rw [h]
      exact .head _
    | commit =>
      have : Committer.step (c, g) .commit = (c, g) := by
        simp [Committer.step, Committer.commit, Kafka.GroupAt.commit, hn]
      rw [Committer.run, List.foldl_cons, this]
      exact ih c g hn he'

/-- **C152 is violated**: a consumer which asks the former coordinator for the position waits for ever, though it may have been stopped meanwhile: however many rounds its loop
makes, `Consume` has no position. -/
theorem C152_violated_read (topic : Bytes) (pid : Int32) (offset : Int64) (ask : Nat → Except Err OffsetFetchResponse) (h : ∀ k, ∃ e, ask k = .error e) :
    ∀ n k, committedLoop topic pid offset ask n k = none
  | 0, _ => rfl
  | n + 1, k => by
    obtain ⟨e, he⟩ := h k
    simp only [committedLoop, he]
    exact C152_violated_read topic pid offset ask h n (k + 1)

/-! ## Cases -/

/-- the group "g" is with node 1 of two -/
theorem goodNet_group : GroupSettled goodNet [103] 1 (infosOf [demoInfo 1 97, demoInfo 2 98]) (demoInfo 2 98) (fun _ => True) where
  truth := by
    intro h w r hr
    cases hr
    rfl
  answers := fun _ _ _ => ⟨_, rfl⟩
  known := .of _
  helperKnown := by decide +kernel
  helperUp := fun w => ⟨w, rfl, trivial⟩
  coordinatorUp := ⟨demoInfo 1 97, by decide +kernel, fun w => ⟨w, rfl⟩⟩

example : ∃ h b', attach goodNet [103] 1 (demoBrokers goodNet) = (some h, b') ∧ b'.cache.get 1 = some h :=
  C152_found_partial goodNet_group _ ⟨rfl, fun _ _ => trivial⟩ 0

example : (Committer.run (⟨1, 5, 0⟩, ⟨1, none⟩) ([.commit, .position 9] ++ [.commit])).2.stored = some 9 := by decide

/-- the group moves to node 2 after position 5 was committed -/
example : (Committer.run (⟨1, 5, 5⟩, ⟨2, some 5⟩) [.position 9, .commit, .position 12, .commit]).2.stored = some 5 :=
  (C152_violated_moved ⟨1, 5, 5⟩ ⟨2, some 5⟩ (by decide) _ (by simp)).1

example : committedLoop [116] 0 (-1) (fun _ => .error (.kafka 16)) 100 0 = none :=
  C152_violated_read _ _ _ _ (fun _ => ⟨_, rfl⟩) _ _

end Healer
