import Verif.Model.Follow
import Verif.Props.Brokers2

/-!
# C151: a partition consumer follows the leader of its partition

The specification is Kafka's: what a broker answers to a fetch that carries a leader epoch (`Kafka.fetchVerdict`).
-/

/-- The error code of a broker's answer to a fetch, which names the leader epoch the client knows (-1 if it knows none): 74 is FENCED_LEADER_EPOCH, 75 is
UNKNOWN_LEADER_EPOCH, 6 is NOT_LEADER_OR_FOLLOWER.  The epochs are compared first. -/
def Kafka.fetchVerdict (leader epoch node known : Int) : Option Int16 :=
  if 0 ≤ known ∧ known < epoch then some 74
  else if epoch < known then some 75
  else if node ≠ leader then some 6
  else none

namespace Healer

open Brokers Following

variable {W : Type}

/-- the state of a cluster as far as one partition is concerned, known to all its brokers -/
structure Lead where
  leader : Int32
  epoch : Int32
  /-- nodes which do not answer -/
  down : Int32 → Bool

/-- what a fetch comes to -/
def Lead.fetch (c : Lead) (node known : Int32) : Fetched :=
  if c.down node then .refused .eof
  else match Kafka.fetchVerdict c.leader.toInt c.epoch.toInt node.toInt known.toInt with
    | none => .served
    | some code => .failed (.kafka code)

/-- a metadata answer which tells the truth about the partition -/
def Lead.ToldBy (c : Lead) (topic : Bytes) (pid : Int32) (r : MetadataResponse) : Prop :=
  ∃ t ts p, r.topics = t :: ts ∧ t.name = topic ∧ t.partitions.find? (fun x => x.partitionID = pid) = some p ∧ p.leader = c.leader ∧ p.leaderEpoch = c.epoch

/-- A cluster in which the partition has a leader that can be reached, known to all who answer; among the known nodes there is one
which answers (`helper`; `good` are its broker objects). -/
structure Settled (net : Net W) (topic : Bytes) (pid : Int32) (c : Lead) (infos : AMap Int32 BrokerInfo) (helper : BrokerInfo) (good : Nat → Prop) : Prop where
  truth : ∀ h w r, (net.metadata h [topic] w).1 = (r, none) → c.ToldBy topic pid r
  calm : ∀ h w r e, (net.metadata h [topic] w).1 = (r, some e) → e.isKafka = false
  answers : ∀ h, good h → ∀ w, ∃ r, (net.metadata h [topic] w).1 = (r, none)
  known : InfosOk infos
  helperKnown : infos.get helper.nodeID = some helper
  helperUp : ∀ w, ∃ h, (net.connect helper.netAddress helper.nodeID w).1 = .ok h ∧ good h
  leader : c.leader ≠ -1
  epoch : 0 ≤ c.epoch.toInt
  leaderUp : c.down c.leader = false ∧ ∃ i, infos.get c.leader = some i ∧ ∀ w, ∃ h, (net.connect i.netAddress i.nodeID w).1 = .ok h

/-- the client knows the nodes, and the object it has for `helper`, if any, works -/
structure Aware (infos : AMap Int32 BrokerInfo) (helper : BrokerInfo) (good : Nat → Prop) (b : Brokers W) : Prop where
  infos : b.infos = infos
  cached : ∀ h, b.cache.get helper.nodeID = some h → good h.1

section

variable {net : Net W} {topic : Bytes} {pid : Int32} {c : Lead} {infos : AMap Int32 BrokerInfo} {helper : BrokerInfo} {good : Nat → Prop}

theorem getBroker_aware (hk0 : infos.get helper.nodeID = some helper)
    (hup : ∀ w, ∃ h, (net.connect helper.netAddress helper.nodeID w).1 = .ok h ∧ good h) (i : BrokerInfo) (hi : infos.get i.nodeID = some i) (b : Brokers W)
    (ha : Aware infos helper good b) :
    Aware infos helper good (getBroker net i.nodeID b).2 ∧ (i = helper → ∃ h, (getBroker net i.nodeID b).1 = .ok h ∧ good h.1) := by
  unfold getBroker
  cases hc : b.cache.get i.nodeID with
  | some h => exact ⟨ha, fun e => ⟨h, rfl, ha.cached h (e ▸ hc)⟩⟩
  | none =>
    have hk : b.infos.get i.nodeID = some i := by rw [ha.infos]; exact hi
    simp only [ensureKnown, hk, createBroker]
    unfold Brokers.connect
    rcases hx : net.connect i.netAddress i.nodeID b.world with ⟨e | h, w⟩
    · refine ⟨⟨ha.infos, ha.cached⟩, ?_⟩
      rintro rfl
      obtain ⟨h, hh, -⟩ := hup b.world
      rw [hx] at hh
      cases hh
    · by_cases e : i = helper
      · subst e
        obtain ⟨h', hh, hg⟩ := hup b.world
        rw [hx] at hh
        cases hh
        refine ⟨⟨ha.infos, fun k hk' => ?_⟩, fun _ => ⟨_, rfl, hg⟩⟩
        simp only [AMap.get_set, if_true] at hk'
        cases hk'
        exact hg
      · refine ⟨⟨ha.infos, fun k hk' => ?_⟩, fun e' => absurd e' e⟩
        simp only [AMap.get_set] at hk'
        split at hk'
        · rename_i hn
          exfalso
          have := hk0
          rw [hn, hi] at this
          cases this
          exact e rfl
        · exact ha.cached k hk'

theorem Settled.loop (hs : Settled net topic pid c infos helper good) : ∀ (is : List BrokerInfo) (b : Brokers W), Aware infos helper good b →
    (∀ i ∈ is, infos.get i.nodeID = some i) → helper ∈ is →
    ∃ r b', metadataLoop net [topic] is b = ((r, none), b') ∧ c.ToldBy topic pid r ∧ Aware infos helper good b'
  | [], _, _, _, h => by cases h
  | i :: is, b, ha, hk, hm => by
    obtain ⟨h1, h2⟩ := getBroker_aware hs.helperKnown hs.helperUp i (hk i (.head _)) b ha
    unfold metadataLoop
    rcases hg : getBroker net i.nodeID b with ⟨e | h, b1⟩
    · rw [hg] at h1 h2
      refine hs.loop is b1 h1 (fun j hj => hk j (.tail _ hj)) ?_
      rcases List.mem_cons.1 hm with e' | hm
      · obtain ⟨_, hh, _⟩ := h2 e'.symm
        cases hh
      · exact hm
    · rw [hg] at h1 h2
      simp only [askMetadata]
      have haw : ∀ (w : W) l, Aware infos helper good { b1 with world := w, log := l } := fun w l => Aware.mk (b := { b1 with world := w, log := l }) h1.infos h1.cached
      rcases hq : (net.metadata h.1 [topic] b1.world).1 with ⟨r, _ | e⟩
      · exact ⟨_, _, rfl, hs.truth _ _ _ hq, haw _ _⟩
      · simp only [hs.calm _ _ _ _ hq, Bool.false_eq_true, if_false]
        refine hs.loop is _ (haw _ _) (fun j hj => hk j (.tail _ hj)) ?_
        rcases List.mem_cons.1 hm with e' | hm
        · obtain ⟨_, hh, hgood⟩ := h2 e'.symm
          cases hh
          obtain ⟨r', hr⟩ := hs.answers _ hgood b1.world
          rw [hq] at hr
          cases hr
        · exact hm

theorem Settled.ask (hs : Settled net topic pid c infos helper good) (b : Brokers W) (ha : Aware infos helper good b) :
    ∃ r b', requestMetaData net [topic] b = ((r, none), b') ∧ c.ToldBy topic pid r ∧ Aware infos helper good b' := by
  have hp := net.shuffle_perm (b.infos.map Prod.snd) b.world
  refine hs.loop _ _ ⟨ha.infos, ha.cached⟩ (fun i hi => ?_) (hp.mem_iff.2 ?_)
  · have := hp.mem_iff.1 hi
    rw [ha.infos] at this
    exact hs.known.get this
  · rw [ha.infos]
    exact List.mem_map.2 ⟨_, AMap.mem_of_get_eq_some _ _ _ hs.helperKnown, rfl⟩

theorem Settled.refresh (hs : Settled net topic pid c infos helper good) (known : Int32) (b : Brokers W) (ha : Aware infos helper good b) :
    ∃ b', refreshed net topic pid known b = (c.epoch, b') ∧ Aware infos helper good b' := by
  obtain ⟨r, b', hr, ⟨t, ts, p, h1, h2, h3, -, h5⟩, ha'⟩ := hs.ask b ha
  refine ⟨b', ?_, ha'⟩
  unfold refreshed refreshPartition
  rw [hr]
  have : partitionIn topic pid r = some p := by
    simp [partitionIn, h1, h2, h3]
  simp [this, h5]

theorem Settled.seek (hs : Settled net topic pid c infos helper good) (b : Brokers W) (ha : Aware infos helper good b) :
    ∃ h b', getLeaderBroker net topic pid b = (.ok (h, c.leader), b') ∧ Aware infos helper good b' := by
  obtain ⟨r, b', hr, ⟨t, ts, p, h1, h2, h3, h4, -⟩, ha'⟩ := hs.ask b ha
  obtain ⟨-, i, hi, hc⟩ := hs.leaderUp
  have hid : i.nodeID = c.leader := hs.known.key _ (AMap.mem_of_get_eq_some _ _ _ hi)
  have hk : b'.infos.get c.leader = some i := by rw [ha'.infos]; exact hi
  obtain ⟨h, hh⟩ := hc b'.world
  rcases hx : net.connect i.netAddress i.nodeID b'.world with ⟨e | h', w⟩
  · rw [hx] at hh; cases hh
  · refine ⟨h', { b' with world := w, log := b'.log ++ [.connected i.netAddress c.leader h'] }, ?_, ⟨ha'.infos, ha'.cached⟩⟩
    rw [hid] at hx
    unfold getLeaderBroker findLeader
    simp only [hr, h1, h3, h4, if_neg hs.leader, newBroker, ensureKnown, hk, createBroker, Brokers.connect, hid, hx]

/-- the consumer fetches from the partition's leader, which serves it -/
def Lead.Serves (c : Lead) (s : Following) : Prop :=
  ∃ h e, s = .fetching c.leader h e ∧ c.fetch c.leader e = .served

/-- the epoch which the consumer knows -/
def Following.epoch : Following → Int32
  | .fetching _ _ e => e
  | .seeking e => e
  | .crashed => 0

/-- the node which the consumer fetches from, if any, answers -/
def Lead.Reaches (c : Lead) : Following → Prop
  | .fetching n _ _ => c.down n = false
  | .seeking _ => True
  | .crashed => False

/-- the epoch is accepted -/
def Lead.accepts (c : Lead) (e : Int32) : Bool := e.toInt < 0 ∨ e = c.epoch

/-- how many turns are missing at most -/
def Lead.turns (c : Lead) : Following → Nat
  | .fetching n _ e => (if n = c.leader then 0 else 2) + if c.accepts e then 0 else 1
  | .seeking e => if c.accepts e then 1 else 2
  | .crashed => 0

theorem Lead.fetch_stale {c : Lead} {n e : Int32} (hd : c.down n = false) (h : c.accepts e = false) (hle : e.toInt ≤ c.epoch.toInt) :
    c.fetch n e = .failed (.kafka 74) := by
  simp only [Lead.accepts, decide_eq_false_iff_not, not_or, ← Int32.toInt_inj] at h
  simp only [Lead.fetch, hd, Kafka.fetchVerdict, Bool.false_eq_true, if_false]
  rw [if_pos (by omega)]

theorem Lead.fetch_elsewhere {c : Lead} {n e : Int32} (hE : 0 ≤ c.epoch.toInt) (hd : c.down n = false) (h : c.accepts e = true) (hn : n ≠ c.leader) :
    c.fetch n e = .failed (.kafka 6) := by
  simp only [Lead.accepts, decide_eq_true_eq, ← Int32.toInt_inj] at h
  simp only [Lead.fetch, hd, Kafka.fetchVerdict, Bool.false_eq_true, if_false]
  rw [if_neg (by omega), if_neg (by omega), if_pos (by rwa [ne_eq, Int32.toInt_inj])]

theorem Lead.fetch_served {c : Lead} {e : Int32} (hE : 0 ≤ c.epoch.toInt) (hd : c.down c.leader = false) (h : c.accepts e = true) :
    c.fetch c.leader e = .served := by
  simp only [Lead.accepts, decide_eq_true_eq, ← Int32.toInt_inj] at h
  simp only [Lead.fetch, hd, Kafka.fetchVerdict, Bool.false_eq_true, if_false]
  rw [if_neg (by omega), if_neg (by omega), if_neg (by simp)]

theorem Lead.accepts_epoch (c : Lead) : c.accepts c.epoch = true := by simp [Lead.accepts]

/-- the consumer can go on, and the epoch it knows is not newer than the cluster's -/
structure Lead.Going (c : Lead) (infos : AMap Int32 BrokerInfo) (helper : BrokerInfo) (good : Nat → Prop) (s : Following × Brokers W) : Prop where
  aware : Aware infos helper good s.2
  reaches : c.Reaches s.1
  epoch : s.1.epoch.toInt ≤ c.epoch.toInt

theorem Settled.tick (hs : Settled net topic pid c infos helper good) (s : Following × Brokers W) (ha : Aware infos helper good s.2) (hr : c.Reaches s.1) :
    c.Going infos helper good (tick net topic pid s) ∧ c.turns (tick net topic pid s).1 ≤ min 2 (c.turns s.1) := by
  obtain ⟨f, b⟩ := s
  cases f with
  | crashed => exact hr.elim
  | seeking e =>
    obtain ⟨b', h1, h2⟩ := hs.refresh e b ha
    simp only [Following.tick, h1]
    refine ⟨⟨h2, trivial, by simp [Following.epoch]⟩, ?_⟩
    simp only [Lead.turns, c.accepts_epoch, if_true]
    split <;> simp
  | fetching n h e =>
    obtain ⟨b', h1, h2⟩ := hs.refresh e b ha
    simp only [Following.tick, h1]
    refine ⟨⟨h2, hr, by simp [Following.epoch]⟩, ?_⟩
    simp only [Lead.turns, c.accepts_epoch, if_true]
    split <;> split <;> simp

theorem Settled.step (hs : Settled net topic pid c infos helper good) (s : Following × Brokers W) (hg : c.Going infos helper good s) :
    c.Going infos helper good (step net topic pid c.fetch s) ∧ c.turns (step net topic pid c.fetch s).1 ≤ c.turns s.1 - 1 := by
  obtain ⟨f, b⟩ := s
  obtain ⟨ha, hr, he⟩ := hg
  cases f with
  | crashed => exact hr.elim
  | seeking e =>
    obtain ⟨h, b', h1, h2⟩ := hs.seek b ha
    simp only [Following.step, h1]
    refine ⟨⟨h2, hs.leaderUp.1, he⟩, ?_⟩
    simp only [Lead.turns, if_true]
    split <;> simp
  | fetching n h e =>
    cases hx : c.accepts e with
    | false =>
      obtain ⟨b', h1, h2⟩ := hs.refresh e b ha
      have : Following.step net topic pid c.fetch (.fetching n h e, b) = (.fetching n h c.epoch, b') := by
        simp only [Following.step, Lead.fetch_stale hr hx he, onFailed, h1]
        rfl
      rw [this]
      refine ⟨⟨h2, hr, by simp [Following.epoch]⟩, ?_⟩
      simp [Lead.turns, c.accepts_epoch, hx]
    | true =>
      by_cases hn : n = c.leader
      · subst hn
        simp only [Following.step, Lead.fetch_served hs.epoch hs.leaderUp.1 hx]
        exact ⟨⟨ha, hr, he⟩, by simp [Lead.turns, hx]⟩
      · have : Following.step net topic pid c.fetch (.fetching n h e, b) = (.seeking e, b) := by
          simp only [Following.step, Lead.fetch_elsewhere hs.epoch hr hx hn, onFailed]
          rfl
        rw [this]
        exact ⟨⟨ha, trivial, he⟩, by simp [Lead.turns, hx, hn]⟩

theorem Settled.run (hs : Settled net topic pid c infos helper good) : ∀ (es : List Bool) (s : Following × Brokers W), c.Going infos helper good s →
    c.Going infos helper good (run net topic pid c.fetch es s) ∧ c.turns (run net topic pid c.fetch es s).1 ≤ c.turns s.1 - es.count false
  | [], s, hg => ⟨hg, by simp [Following.run]⟩
  | true :: es, s, hg => by
    obtain ⟨h1, h2⟩ := hs.tick s hg.aware hg.reaches
    obtain ⟨h3, h4⟩ := hs.run es _ h1
    rw [Following.run]
    refine ⟨h3, ?_⟩
    have : (true :: es).count false = es.count false := by simp
    omega
  | false :: es, s, hg => by
    obtain ⟨h1, h2⟩ := hs.step s hg
    obtain ⟨h3, h4⟩ := hs.run es _ h1
    rw [Following.run]
    refine ⟨h3, ?_⟩
    have : (false :: es).count false = es.count false + 1 := by simp
    omega

theorem Settled.arrived (hs : Settled net topic pid c infos helper good) (s : Following × Brokers W) (hg : c.Going infos helper good s) (h : c.turns s.1 = 0) :
    c.Serves s.1 := by
  obtain ⟨f, b⟩ := s
  cases f with
  | crashed => exact hg.reaches.elim
  | seeking e => simp only [Lead.turns] at h; split at h <;> cases h
  | fetching n x e =>
    simp only [Lead.turns] at h
    by_cases hn : n = c.leader
    · subst hn
      cases hx : c.accepts e with
      | true => exact ⟨x, e, rfl, Lead.fetch_served hs.epoch hs.leaderUp.1 hx⟩
      | false => simp [hx] at h
    · simp [hn] at h

theorem Lead.turns_le (c : Lead) (s : Following) : c.turns s ≤ 3 := by
  cases s <;> simp only [Lead.turns]
  · split <;> split <;> simp
  · split <;> simp
  · simp

/-- **C151** Once a new leader is known to the cluster, a consumer which is still fetching from a node that answers (or is looking for the leader), and knows no newer epoch than the cluster's,
fetches from the leader and is served after three turns of its loop, and goes on being served, whenever the minute's refreshing happens.
Missing: a node which does not answer, or answers with another error (`C151_violated_stuck`), and a newer epoch (`C151_violated_epoch`, `C151_epoch_partial`). -/
theorem C151_follows_partial (hs : Settled net topic pid c infos helper good) (s : Following × Brokers W) (hg : c.Going infos helper good s)
    (es : List Bool) (hn : 3 ≤ es.count false) : c.Serves (run net topic pid c.fetch es s).1 := by
  obtain ⟨h1, h2⟩ := hs.run es s hg
  have := c.turns_le s.1
  exact hs.arrived _ h1 (by omega)

/-- A consumer which is served goes on being served by the leader. -/
theorem C151_stays (hs : Settled net topic pid c infos helper good) (s : Following × Brokers W) (ha : Aware infos helper good s.2) (h : c.Serves s.1)
    (es : List Bool) : c.Serves (run net topic pid c.fetch es s).1 := by
  obtain ⟨f, b⟩ := s
  obtain ⟨x, e, rfl, hf⟩ := h
  have hacc : c.accepts e = true := by
    simp only [Lead.fetch, hs.leaderUp.1, Kafka.fetchVerdict, Bool.false_eq_true, if_false] at hf
    simp only [Lead.accepts, decide_eq_true_eq, ← Int32.toInt_inj]
    split at hf
    · rename_i h
      split at h <;> first | cases h | skip
      split at h <;> first | cases h | skip
      omega
    · cases hf
  have hg : c.Going infos helper good (.fetching c.leader x e, b) := by
    refine ⟨ha, hs.leaderUp.1, ?_⟩
    simp only [Lead.accepts, decide_eq_true_eq, ← Int32.toInt_inj] at hacc
    have := hs.epoch
    simp only [Following.epoch]
    omega
  obtain ⟨h1, h2⟩ := hs.run es _ hg
  exact hs.arrived _ h1 (by
    have h0 : c.turns (.fetching c.leader x e) = 0 := by simp [Lead.turns, hacc]
    simp only [h0] at h2
    omega)

/-- A new consumer in such a cluster is served after one turn. -/
theorem C151_start (hs : Settled net topic pid c infos helper good) (b : Brokers W) (ha : Aware infos helper good b)
    (es : List Bool) (hn : 1 ≤ es.count false) : c.Serves (run net topic pid c.fetch es (start net topic pid b)).1 := by
  obtain ⟨b', h1, h2⟩ := hs.refresh 0 b ha
  have h0 : start net topic pid b = (.seeking c.epoch, b') := by simp only [start, h1]
  rw [h0]
  obtain ⟨h3, h4⟩ := hs.run es (.seeking c.epoch, b') ⟨h2, trivial, by simp [Following.epoch]⟩
  have h0 : c.turns (.seeking c.epoch) = 1 := by simp [Lead.turns, c.accepts_epoch]
  simp only [h0] at h4
  exact hs.arrived _ h3 (by omega)

/-- Whatever epoch it knows, the consumer is served two turns after the next refreshing.
Missing: a node which does not answer, or answers with another error (`C151_violated_stuck`). -/
theorem C151_epoch_partial (hs : Settled net topic pid c infos helper good) (s : Following × Brokers W) (ha : Aware infos helper good s.2) (hr : c.Reaches s.1)
    (es : List Bool) (hn : 2 ≤ es.count false) : c.Serves (run net topic pid c.fetch (true :: es) s).1 := by
  obtain ⟨h1, h2⟩ := hs.tick s ha hr
  obtain ⟨h3, h4⟩ := hs.run es _ h1
  rw [Following.run]
  exact hs.arrived _ h3 (by omega)

end

/-- **C151 is violated**: a consumer whose node refuses its fetches, or answers them with an error other than 6 (say 56, KAFKA_STORAGE_ERROR, from a node that has lost the disk),
stays with that node whatever happens, though there is another leader. -/
theorem C151_violated_stuck (net : Net W) (topic : Bytes) (pid : Int32) (fetch : Int32 → Int32 → Fetched) (node : Int32)
    (hf : ∀ e, fetch node e = .served ∨ (∃ x, fetch node e = .refused x) ∨ ∃ x, fetch node e = .failed x ∧ x.is (.kafka 6) = false) :
    ∀ (es : List Bool) (h : Nat) (e : Int32) (b : Brokers W), ∃ e' b', run net topic pid fetch es (.fetching node h e, b) = (.fetching node h e', b')
  | [], h, e, b => ⟨e, b, rfl⟩
  | true :: es, h, e, b => C151_violated_stuck net topic pid fetch node hf es h _ _
  | false :: es, h, e, b => by
    rw [Following.run]
    have : ∃ e' b', step net topic pid fetch (.fetching node h e, b) = (.fetching node h e', b') := by
      rcases hf e with hx | ⟨x, hx⟩ | ⟨x, hx, hn⟩
      · exact ⟨e, b, by simp only [step, hx]⟩
      · exact ⟨e, b, by simp only [step, hx]⟩
      · simp only [step, hx, onFailed, hn, Bool.false_eq_true, if_false]
        split
        · exact ⟨_, _, rfl⟩
        · split <;> exact ⟨_, _, rfl⟩
    obtain ⟨e', b', h'⟩ := this
    rw [h']
    exact C151_violated_stuck net topic pid fetch node hf es h e' b'

/-- **C151 is violated**: a consumer which knows a newer epoch than the cluster (its topic was deleted and made again) is refused by the leader,
however many turns its loop makes before the next refreshing. -/
theorem C151_violated_epoch (net : Net W) (topic : Bytes) (pid : Int32) (c : Lead) (h : Nat) (e : Int32) (he : c.epoch.toInt < e.toInt)
    (hd : c.down c.leader = false) (b : Brokers W) :
    c.fetch c.leader e = .failed (.kafka 75) ∧
    ∀ k, run net topic pid c.fetch (List.replicate k false) (.fetching c.leader h e, b) = (.fetching c.leader h e, b) := by
  have hf : c.fetch c.leader e = .failed (.kafka 75) := by
    simp only [Lead.fetch, hd, Kafka.fetchVerdict, Bool.false_eq_true, if_false]
    rw [if_neg (by omega), if_pos he]
  refine ⟨hf, fun k => ?_⟩
  induction k with
  | zero => rfl
  | succ k ih =>
    have : step net topic pid c.fetch (.fetching c.leader h e, b) = (.fetching c.leader h e, b) := by
      simp only [step, hf, onFailed]
      rfl
    rw [List.replicate_succ, run, this, ih]

/-! ## Cases -/

/-- nodes 1 at a:1 and 2 at b:1; partition 0 of "t" is led by 2, in epoch 5 -/
def ledMeta : MetadataResponse :=
  ⟨0, 0, [demoInfo 1 97, demoInfo 2 98], [], 1, [⟨0, [116], false, [⟨0, 0, 2, 5, [], [], []⟩]⟩]⟩

/-- all nodes answer, but those at `dead` -/
def ledNet (dead : Bytes → Bool) : Net Nat := demoNet dead (fun _ _ => (ledMeta, none)) (fun _ => [])

/-- node 2 leads in epoch 5 -/
def ledBy2 (down : Int32 → Bool) : Lead := ⟨2, 5, down⟩

theorem ledNet_settled (dead : Bytes → Bool) (down : Int32 → Bool) (h : dead [98, 58, 49] = false) (hd : down 2 = false) :
    Settled (ledNet dead) [116] 0 (ledBy2 down) (infosOf [demoInfo 1 97, demoInfo 2 98]) (demoInfo 2 98) (fun _ => True) where
  truth := by
    intro k w r hr
    cases hr
    exact ⟨_, _, _, rfl, rfl, rfl, rfl, rfl⟩
  calm := by
    intro k w r e hr
    cases hr
  answers := fun _ _ _ => ⟨_, rfl⟩
  known := .of _
  helperKnown := by decide +kernel
  helperUp := fun w => ⟨w, by
    have : (demoInfo 2 98).netAddress = [98, 58, 49] := by decide +kernel
    simp [ledNet, demoNet, this, h], trivial⟩
  leader := show (2 : Int32) ≠ -1 by decide
  epoch := show 0 ≤ (5 : Int32).toInt by decide
  leaderUp := ⟨hd, demoInfo 2 98, show (infosOf [demoInfo 1 97, demoInfo 2 98]).get 2 = some (demoInfo 2 98) by decide +kernel, fun w => ⟨w, by
    have : (demoInfo 2 98).netAddress = [98, 58, 49] := by decide +kernel
    simp [ledNet, demoNet, this, h]⟩⟩

theorem ledNet_aware (dead : Bytes → Bool) : Aware (infosOf [demoInfo 1 97, demoInfo 2 98]) (demoInfo 2 98) (fun _ => True) (demoBrokers (ledNet dead)) :=
  ⟨rfl, fun _ _ => trivial⟩

/-- a consumer which fetched from node 1 in epoch 4 -/
example : (ledBy2 fun _ => false).Serves (run (ledNet fun _ => false) [116] 0 (ledBy2 fun _ => false).fetch [false, false, false]
    (.fetching 1 7 4, demoBrokers (ledNet fun _ => false))).1 :=
  C151_follows_partial (ledNet_settled _ _ rfl rfl) _ ⟨ledNet_aware _, by exact (rfl : false = false), by exact (by decide : (4 : Int32).toInt ≤ (5 : Int32).toInt)⟩ _ (by decide)

/-- fenced, then told to go elsewhere, then served by node 2 -/
example : ([0, 1, 2, 3].map fun k => (run (ledNet fun _ => false) [116] 0 (ledBy2 fun _ => false).fetch (List.replicate k false)
    (.fetching 1 7 4, demoBrokers (ledNet fun _ => false))).1) = [.fetching 1 7 4, .fetching 1 7 5, .seeking 5, .fetching 2 4 5] := by
  decide +kernel

/-- a new consumer -/
example : (ledBy2 fun _ => false).Serves (run (ledNet fun _ => false) [116] 0 (ledBy2 fun _ => false).fetch [true, false]
    (start (ledNet fun _ => false) [116] 0 (demoBrokers (ledNet fun _ => false)))).1 :=
  C151_start (ledNet_settled _ _ rfl rfl) _ (ledNet_aware _) _ (by decide)

/-- epoch 9, of a topic which is gone -/
example : (ledBy2 fun _ => false).Serves (run (ledNet fun _ => false) [116] 0 (ledBy2 fun _ => false).fetch [true, false, false]
    (.fetching 1 7 9, demoBrokers (ledNet fun _ => false))).1 :=
  C151_epoch_partial (ledNet_settled _ _ rfl rfl) _ (ledNet_aware _) (by exact (rfl : false = false)) _ (by decide)

/-- **C151 is violated**: node 1 led the partition and dies.  Node 2, which can be reached, leads now and everyone knows it, but the consumer is never served again. -/
theorem C151_violated_dead :
    Settled (ledNet (· = [97, 58, 49])) [116] 0 (ledBy2 (· = 1)) (infosOf [demoInfo 1 97, demoInfo 2 98]) (demoInfo 2 98) (fun _ => True) ∧
    Aware (infosOf [demoInfo 1 97, demoInfo 2 98]) (demoInfo 2 98) (fun _ => True) (demoBrokers (ledNet (· = [97, 58, 49]))) ∧
    ∀ es, ¬ (ledBy2 (· = 1)).Serves (run (ledNet (· = [97, 58, 49])) [116] 0 (ledBy2 (· = 1)).fetch es
      (.fetching 1 7 4, demoBrokers (ledNet (· = [97, 58, 49])))).1 := by
  refine ⟨ledNet_settled _ _ (by decide) (by decide), ledNet_aware _, fun es => ?_⟩
  obtain ⟨e', b', h⟩ := C151_violated_stuck (ledNet (· = [97, 58, 49])) [116] 0 (ledBy2 (· = 1)).fetch 1 (fun e => .inr (.inl ⟨.eof, rfl⟩)) es 7 4
    (demoBrokers (ledNet (· = [97, 58, 49])))
  rw [h]
  rintro ⟨x, e, hx, -⟩
  cases hx

example : (ledBy2 fun _ => false).fetch 2 9 = .failed (.kafka 75) :=
  (C151_violated_epoch goodNet [116] 0 (ledBy2 fun _ => false) 0 9 (by decide) rfl (demoBrokers goodNet)).1

end Healer
