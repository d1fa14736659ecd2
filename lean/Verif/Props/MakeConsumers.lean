import Verif.Model.MakeConsumers
import Verif.Props.OwnCommit

/-!
# C168: a consumer without a group and coordinators
-/

namespace Healer

open Brokers

variable {W : Type} (net : Net W)

/-- No broker names a coordinator: each answers with an error (Kafka's COORDINATOR_NOT_AVAILABLE, for instance) or not at all. -/
def NoCoordinator : Prop := ∀ h g w, (net.coordinator h g w).1.2 ≠ none

theorem coordinatorLoop_none (hn : NoCoordinator net) (g : Bytes) (is : List BrokerInfo) (b : Brokers W) :
    ∃ e b', coordinatorLoop net g is b = (.error e, b') := by
  induction is generalizing b with
  | nil => exact ⟨_, _, rfl⟩
  | cons i is ih =>
    unfold coordinatorLoop
    cases getBroker net i.nodeID b with
    | mk x b1 =>
      cases x with
      | error e => exact ih b1
      | ok h =>
        dsimp only
        cases ha : askCoordinator net h.1 g b1 with
        | mk y b2 =>
          obtain ⟨r, e⟩ := y
          cases e with
          | none =>
            refine absurd ?_ (hn h.1 g b1.world)
            unfold askCoordinator at ha
            exact congrArg (fun z => z.1.2) ha
          | some e => exact ih b2

theorem attach_none (hn : NoCoordinator net) (g : Bytes) (n : Nat) (b : Brokers W) : (attach net g n b).1 = none := by
  induction n generalizing b with
  | zero => rfl
  | succ n ih =>
    unfold attach
    have : ∃ e b', ownCoordinator net g b = (.error e, b') := by
      unfold ownCoordinator findCoordinator
      cases order net (b.infos.map Prod.snd) b with
      | mk is b1 =>
        obtain ⟨e, b2, h⟩ := coordinatorLoop_none net hn g is b1
        dsimp only
        rw [h]
        exact ⟨_, _, rfl⟩
    obtain ⟨e, b2, h⟩ := this
    rw [h]
    exact ih b2

/-- C168 does not hold: a consumer without a group (and one with a group as well) starts no partition at all while no broker names a coordinator, however often it tries, however well the
partitions' leaders work; and `Consume` does not come back. -/
theorem C168_violated_every (hn : NoCoordinator net) (group : Bytes) (rounds : Nat) (ps : List (Bytes × Int32)) (hps : ps ≠ []) (b : Brokers W) :
    startedConsumers net group rounds ps b = [] ∧ (makeConsumers net group rounds ps b).2.1 = false := by
  have one : ∀ t b, (makeOne net group t rounds b).1 = false := by
    intro t b
    unfold makeOne
    cases attachIfGroup net group rounds (requestMetaData net [t] b).2 with
    | mk x b1 =>
      cases x with
      | false => rfl
      | true =>
        dsimp only
        have := attach_none net hn group rounds b1
        cases ha : attach net group rounds b1 with
        | mk y b2 => rw [ha] at this; cases this; rfl
  cases ps with
  | nil => exact absurd rfl hps
  | cons p ps =>
    have h1 := one p.1 b
    cases hm : makeOne net group p.1 rounds b with
    | mk x b1 =>
      rw [hm] at h1
      cases h1
      have : makeConsumers net group rounds (p :: ps) b = ([], false, b1) := by rw [makeConsumers, hm]
      unfold startedConsumers
      rw [this]
      exact ⟨rfl, rfl⟩

/-- A cluster in which everything works but the coordinators. -/
def headless : Net Nat := { goodNet with coordinator := fun _ _ w => ((⟨0, 15, -1, [], -1⟩, some (.kafka 15)), w + 1) }

example : NoCoordinator headless := fun _ _ _ => by simp [headless]

/-- In it metadata is had, with the leaders of three partitions. -/
example : (requestMetaData headless [[116]] (demoBrokers headless)).1 = (demoMeta, none) := by decide +kernel

section

variable {net} {group : Bytes} {node : Int32} {infos : AMap Int32 BrokerInfo} {helper : BrokerInfo} {good : Nat → Prop}

theorem GroupSettled.metadata (hs : GroupSettled net group node infos helper good) (ts : List Bytes) : ∀ (is : List BrokerInfo) (b : Brokers W),
    Aware infos helper good b → (∀ i ∈ is, infos.get i.nodeID = some i) → Aware infos helper good (metadataLoop net ts is b).2
  | [], _, ha, _ => ha
  | i :: is, b, ha, hk => by
    obtain ⟨h1, -⟩ := getBroker_aware hs.helperKnown hs.helperUp i (hk i (.head _)) b ha
    unfold metadataLoop
    rcases hg : getBroker net i.nodeID b with ⟨e | h, b1⟩
    · rw [hg] at h1
      exact hs.metadata ts is b1 h1 (fun j hj => hk j (.tail _ hj))
    · rw [hg] at h1
      have haw : ∀ (w : W) l, Aware infos helper good { b1 with world := w, log := l } := fun w l => Aware.mk (b := { b1 with world := w, log := l }) h1.infos h1.cached
      simp only [askMetadata]
      rcases hq : (net.metadata h.1 ts b1.world).1 with ⟨r, _ | e⟩
      · exact haw _ _
      · simp only
        split
        · exact haw _ _
        · exact hs.metadata ts is _ (haw _ _) (fun j hj => hk j (.tail _ hj))

theorem GroupSettled.listed (hs : GroupSettled net group node infos helper good) (b : Brokers W) (ha : Aware infos helper good b) :
    ∀ i ∈ (net.shuffle (b.infos.map Prod.snd) b.world).1, infos.get i.nodeID = some i := by
  intro i hi
  have := (net.shuffle_perm (b.infos.map Prod.snd) b.world).mem_iff.1 hi
  rw [ha.infos] at this
  exact hs.known.get this

theorem GroupSettled.own (hs : GroupSettled net group node infos helper good) (b : Brokers W) (ha : Aware infos helper good b) :
    ∃ h b', ownCoordinator net group b = (.ok h, b') ∧ Aware infos helper good b' := by
  have hp := net.shuffle_perm (b.infos.map Prod.snd) b.world
  have hf : ∃ r b', findCoordinator net group b = (.ok r, b') ∧ r.nodeID = node ∧ Aware infos helper good b' := by
    refine hs.loop _ _ ⟨ha.infos, ha.cached⟩ (hs.listed b ha) (hp.mem_iff.2 ?_)
    rw [ha.infos]
    exact List.mem_map.2 ⟨_, AMap.mem_of_get_eq_some _ _ _ hs.helperKnown, rfl⟩
  obtain ⟨r, b1, h1, h2, h3⟩ := hf
  obtain ⟨i, hi, hc⟩ := hs.coordinatorUp
  have hid : i.nodeID = node := hs.known.key _ (AMap.mem_of_get_eq_some _ _ _ hi)
  have hk : b1.infos.get node = some i := by rw [h3.infos]; exact hi
  have hok : ∃ h, (getBroker net node b1).1 = .ok h := by
    unfold getBroker
    cases hc' : b1.cache.get node with
    | some h => exact ⟨h, rfl⟩
    | none =>
      simp only [ensureKnown, hk, createBroker]
      unfold Brokers.connect
      obtain ⟨h, hh⟩ := hc b1.world
      rcases hx : net.connect i.netAddress i.nodeID b1.world with ⟨e | h', w⟩
      · rw [hx] at hh; cases hh
      · exact ⟨_, rfl⟩
  obtain ⟨h, hh⟩ := hok
  have h4 := (getBroker_aware hs.helperKnown hs.helperUp i (by rw [hid]; exact hi) b1 h3).1
  rw [hid] at h4
  exact ⟨h, (getBroker net node b1).2, by simp only [ownCoordinator, h1, h2]; rw [← hh], h4⟩

/-- **C168, the part that holds.** In a cluster in which the coordinator of the group — without a group that of the empty group id — is known to those who answer and can be reached, all
partitions are started, each once, in order, whatever is answered about the metadata.  What is missing: clusters without coordinator (`C168_violated_every`). -/
theorem C168_found_partial (hs : GroupSettled net group node infos helper good) (rounds : Nat) (hr : 0 < rounds)
    (ps : List (Bytes × Int32)) (b : Brokers W) (ha : Aware infos helper good b) : startedConsumers net group rounds ps b = ps := by
  have at1 : ∀ b, Aware infos helper good b → ∃ h b', attach net group rounds b = (some h, b') ∧ Aware infos helper good b' := by
    intro b ha
    obtain ⟨n, rfl⟩ : ∃ n, rounds = n + 1 := ⟨rounds - 1, by omega⟩
    obtain ⟨h, b', hb, ha'⟩ := hs.own b ha
    exact ⟨h, b', by unfold attach; rw [hb], ha'⟩
  have one : ∀ t b, Aware infos helper good b → ∃ b', makeOne net group t rounds b = (true, b') ∧ Aware infos helper good b' := by
    intro t b ha
    have : ∀ b, Aware infos helper good b → ∃ b', attachIfGroup net group rounds b = (true, b') ∧ Aware infos helper good b' := by
      intro b ha
      unfold attachIfGroup
      by_cases hg : group = []
      · exact ⟨b, if_pos hg, ha⟩
      · obtain ⟨h, b', hb, ha'⟩ := at1 b ha
        exact ⟨b', by rw [if_neg hg, hb], ha'⟩
    have h0 : Aware infos helper good (requestMetaData net [t] b).2 :=
      hs.metadata [t] _ { b with world := _ } ⟨ha.infos, ha.cached⟩ (hs.listed b ha)
    obtain ⟨b1, h1, ha1⟩ := this _ h0
    obtain ⟨h, b2, h2, ha2⟩ := at1 b1 ha1
    exact ⟨b2, by unfold makeOne; rw [h1]; dsimp only; rw [h2], ha2⟩
  have all : ∀ ps b, Aware infos helper good b → ∃ b', makeConsumers net group rounds ps b = (ps, true, b') := by
    intro ps
    induction ps with
    | nil => exact fun b _ => ⟨b, rfl⟩
    | cons p ps ih =>
      intro b ha
      obtain ⟨b1, h1, ha1⟩ := one p.1 b ha
      obtain ⟨b2, h2⟩ := ih b1 ha1
      exact ⟨b2, by rw [makeConsumers, h1]; dsimp only; rw [h2]⟩
  obtain ⟨b', h⟩ := all ps b ha
  unfold startedConsumers
  rw [h]

end

/-- the empty group id is with node 1 of two -/
theorem goodNet_nogroup : GroupSettled goodNet [] 1 (infosOf [demoInfo 1 97, demoInfo 2 98]) (demoInfo 2 98) (fun _ => True) where
  truth := by
    intro h w r hr
    cases hr
    rfl
  answers := fun _ _ _ => ⟨_, rfl⟩
  known := .of _
  helperKnown := by decide +kernel
  helperUp := fun w => ⟨w, rfl, trivial⟩
  coordinatorUp := ⟨demoInfo 1 97, by decide +kernel, fun w => ⟨w, rfl⟩⟩

example : startedConsumers goodNet [] 1 [([116], 0), ([116], 2)] (demoBrokers goodNet) = [([116], 0), ([116], 2)] :=
  C168_found_partial goodNet_nogroup 1 (by decide) _ _ ⟨rfl, fun _ _ => trivial⟩

example : startedConsumers goodNet [] 1 [([116], 0), ([116], 2)] (demoBrokers goodNet) = [([116], 0), ([116], 2)] := by decide +kernel

end Healer
