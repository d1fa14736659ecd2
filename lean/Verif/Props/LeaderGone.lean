import Verif.Props.Consumer2

/-! C99 and C93: every leader that cannot be reached, and every cluster that answers without topics, crash the caller. -/

namespace Healer
open Brokers

variable {W : Type} (net : Net W)

/-- nobody accepts connections at the address -/
def Refused (a : Bytes) : Prop := ∀ (n : Int32) (w : W), ∃ e w', net.connect a n w = (.error e, w')

/-- the cluster knows where node `l` is, and no connection to it was ever made -/
def Apart (infos : AMap Int32 BrokerInfo) (l : Int32) (b : Brokers W) : Prop := b.infos = infos ∧ b.cache.get l = none

variable {net}

theorem getBroker_refused {l : Int32} {i : BrokerInfo} (hr : Refused net i.netAddress) {b : Brokers W} (hi : b.infos.get l = some i)
    (hn : b.cache.get l = none) : ∃ e, (getBroker net l b).1 = .error e ∧ (getBroker net l b).2.cache = b.cache := by
  obtain ⟨e, w', h⟩ := hr i.nodeID b.world
  simp [getBroker, hn, ensureKnown, hi, createBroker, Brokers.connect, h]

theorem getBroker_apart {infos : AMap Int32 BrokerInfo} {l : Int32} {i : BrokerInfo} (hr : Refused net i.netAddress)
    (hi : infos.get l = some i) {n : Int32} {j : BrokerInfo} (hj : infos.get n = some j) {b : Brokers W} (hb : Apart infos l b) :
    Apart infos l (getBroker net n b).2 := by
  obtain ⟨h1, h2⟩ := hb
  subst h1
  refine ⟨(getBroker_known net n b j hj).1, ?_⟩
  by_cases hnl : n = l
  · subst hnl
    obtain ⟨e, -, h⟩ := getBroker_refused hr hi h2
    rw [h, h2]
  · unfold getBroker
    cases hc : b.cache.get n with
    | some x => exact h2
    | none =>
      simp only [ensureKnown, hj, createBroker]
      obtain ⟨d, -, h3, -, -⟩ := connect_quiet net j.netAddress j.nodeID b
      revert h3
      rcases Brokers.connect net j.netAddress j.nodeID b with ⟨_ | h, b1⟩ <;> intro h3
      · exact (congrArg (fun c => AMap.get c l) h3).trans h2
      · simp only [AMap.get_set]
        rw [if_neg (fun h => hnl h.symm)]
        exact (congrArg (fun c => AMap.get c l) h3).trans h2

theorem metadataLoop_apart {infos : AMap Int32 BrokerInfo} {l : Int32} {i : BrokerInfo} (hr : Refused net i.netAddress)
    (hi : infos.get l = some i) (ts : List Bytes) : ∀ (is : List BrokerInfo) (b : Brokers W),
    (∀ j ∈ is, infos.get j.nodeID = some j) → Apart infos l b → Apart infos l (metadataLoop net ts is b).2
  | [], b, _, hb => hb
  | j :: is, b, hk, hb => by
    have hb1 := getBroker_apart hr hi (hk j (.head _)) hb
    have ih := fun b => metadataLoop_apart hr hi ts is b (fun j hj => hk j (.tail _ hj))
    unfold metadataLoop
    revert hb1
    rcases getBroker net j.nodeID b with ⟨_ | h, b1⟩ <;> intro hb1
    · exact ih _ hb1
    · have hb2 : Apart infos l (askMetadata net h.1 ts b1).2 := hb1
      simp only
      revert hb2
      rcases askMetadata net h.1 ts b1 with ⟨⟨r, _ | e⟩, b2⟩ <;> intro hb2
      · exact hb2
      · simp only
        split
        · exact hb2
        · exact ih _ hb2

theorem requestMetaData_apart {b : Brokers W} (hk : InfosOk b.infos) {l : Int32} {i : BrokerInfo} (hr : Refused net i.netAddress)
    (hi : b.infos.get l = some i) (hn : b.cache.get l = none) (ts : List Bytes) :
    Apart b.infos l (requestMetaData net ts b).2 :=
  metadataLoop_apart hr hi ts _ _ (fun _ hj => hk.get ((net.shuffle_perm _ _).mem_iff.1 hj)) ⟨rfl, hn⟩

theorem findLeader_apart {b : Brokers W} (hk : InfosOk b.infos) {l : Int32} {i : BrokerInfo} (hr : Refused net i.netAddress)
    (hi : b.infos.get l = some i) (hn : b.cache.get l = none) (t : Bytes) (p : Int32) :
    Apart b.infos l (findLeader net t p b).2 := by
  have h := requestMetaData_apart hk hr hi hn [t]
  unfold findLeader
  revert h
  rcases requestMetaData net [t] b with ⟨⟨r, _ | e⟩, b1⟩ <;> intro h
  · simp only
    repeat' split
    all_goals exact h
  · simp only
    repeat' split
    all_goals exact h

/-- C99 does not hold for any topic, partition, cluster or broker: whenever the metadata names a leader whose address
refuses connections, and the client has no connection to that leader from before, the partition consumer crashes
instead of reporting that the leader is unreachable. -/
theorem C99_violated_every_unreachable (b : Brokers W) (hk : InfosOk b.infos) {l : Int32} (hl : l ≠ -1) {i : BrokerInfo}
    (hi : b.infos.get l = some i) (hr : Refused net i.netAddress) (hn : b.cache.get l = none) (t : Bytes) (p : Int32)
    (hf : (findLeader net t p b).1 = .ok l) : (getLeaderBroker net t p b).1 = .panic := by
  obtain ⟨h1, h2⟩ := findLeader_apart hk hr hi hn t p
  revert hf h1 h2
  unfold getLeaderBroker
  rcases findLeader net t p b with ⟨o, b1⟩
  intro hf h1 h2
  simp only at hf h1 h2
  subst hf
  obtain ⟨e, w', h⟩ := hr i.nodeID b1.world
  have hi1 : b1.infos.get l = some i := h1 ▸ hi
  simp [hl, newBroker, ensureKnown, hi1, createBroker, Brokers.connect, h, h2]

example : Refused halfNet [98, 58, 49] := fun _ _ => ⟨_, _, rfl⟩

example : ∃ i, (demoBrokers halfNet).infos.get 2 = some i ∧ i.netAddress = [98, 58, 49] ∧ (demoBrokers halfNet).cache.get 2 = none ∧
    (findLeader halfNet [116] 0 (demoBrokers halfNet)).1 = .ok 2 := ⟨demoInfo 2 98, by decide +kernel⟩

/-- every request for metadata is answered without error and without topics -/
def Topicless (net : Net W) : Prop := ∀ (h : Nat) (ts : List Bytes) (w : W),
  (net.metadata h ts w).1.2 = none ∧ (net.metadata h ts w).1.1.topics = []

theorem metadataLoop_topicless (ht : Topicless net) (ts : List Bytes) : ∀ (is : List BrokerInfo) (b : Brokers W) (j : BrokerInfo)
    (c : Nat × Int32), j ∈ is → b.cache.get j.nodeID = some c →
    (metadataLoop net ts is b).1.2 = none ∧ (metadataLoop net ts is b).1.1.topics = []
  | [], _, _, _, hj, _ => by cases hj
  | i :: is, b, j, c, hj, hc => by
    have hg := (getBroker_grows net i.nodeID b).cache _ _ hc
    have hh : i = j → (getBroker net i.nodeID b).1 = .ok c := by rintro rfl; simp [getBroker, hc]
    have ih := fun b => metadataLoop_topicless ht ts is b j c
    unfold metadataLoop
    revert hg hh
    rcases getBroker net i.nodeID b with ⟨_ | h, b1⟩ <;> intro hg hh
    · rcases List.mem_cons.1 hj with rfl | hj
      · cases hh rfl
      · exact ih _ hj hg
    · obtain ⟨h1, h2⟩ := ht h.1 ts b1.world
      simp only [askMetadata]
      revert h1 h2
      rcases (net.metadata h.1 ts b1.world).1 with ⟨r, _ | e⟩ <;> intro h1 h2
      · exact ⟨rfl, h2⟩
      · cases h1

/-- C93 does not hold for any topic or partition: a client connected to some broker crashes in both look-ups, of
offsets and of leaders, whenever the brokers answer the request for metadata without naming a topic. -/
theorem C93_violated_every_topicless (ht : Topicless net) (b : Brokers W) {n : Int32} {i : BrokerInfo} (hk : InfosOk b.infos)
    (hi : b.infos.get n = some i) {c : Nat × Int32} (hc : b.cache.get n = some c) (t : Bytes) (p : Int32) :
    (requestOffsets net t p b).1 = .panic ∧ (findLeader net t p b).1 = .panic := by
  have hm := AMap.mem_of_get_eq_some _ _ _ hi
  have hn : i.nodeID = n := hk.key (n, i) hm
  have h : (requestMetaData net [t] b).1.2 = none ∧ (requestMetaData net [t] b).1.1.topics = [] :=
    metadataLoop_topicless ht [t] _ _ i c ((net.shuffle_perm _ _).mem_iff.2 (List.mem_map.2 ⟨_, hm, rfl⟩)) (hn ▸ hc)
  refine ⟨(C93_offsets_partial net t p b).2 h, ?_⟩
  unfold findLeader
  revert h
  rcases requestMetaData net [t] b with ⟨⟨r, _ | e⟩, b1⟩ <;> rintro ⟨h1, h2⟩
  · simp only at h2
    simp [h2]
  · cases h1

example : Topicless emptyNet := fun _ _ _ => ⟨rfl, rfl⟩
example : (demoBrokers emptyNet).infos.get 1 = some (demoInfo 1 97) ∧ (demoBrokers emptyNet).cache.get 1 = some (0, -1) := by
  decide +kernel

/-- C99: when the brokers connected to answer no request for the topic's metadata, the look-up of the leader, the
partition consumer and the look-up of offsets all report an error, whichever connections are refused. -/
theorem C99_unanswered_partial (t : Bytes) (hm : ∀ h w, ∃ e, (net.metadata h [t] w).1.2 = some e ∧ e.isKafka = false)
    (p : Int32) (b : Brokers W) : (∃ e, (findLeader net t p b).1 = .err e) ∧ (∃ e, (getLeaderBroker net t p b).1 = .err e) ∧
    ∃ e, (requestOffsets net t p b).1 = .err e := by
  have hloop : ∀ is (b : Brokers W), (metadataLoop net [t] is b).1.2 = some .noAvailableBrokers := by
    intro is
    induction is with
    | nil => intro b; rfl
    | cons i is ih =>
      intro b
      unfold metadataLoop
      rcases getBroker net i.nodeID b with ⟨_ | k, b1⟩
      · exact ih b1
      · obtain ⟨e, he, hk⟩ := hm k.1 b1.world
        simp only
        rcases ha : askMetadata net k.1 [t] b1 with ⟨⟨r, o⟩, b2⟩
        unfold askMetadata at ha
        simp only [Prod.mk.injEq] at ha
        rw [ha.1] at he
        simp only at he
        subst he
        simp only [hk]
        exact ih b2
  have hr : (requestMetaData net [t] b).1.2 = some .noAvailableBrokers := hloop _ _
  have hf : ∃ e, (findLeader net t p b).1 = .err e := by
    unfold findLeader
    revert hr
    rcases requestMetaData net [t] b with ⟨⟨r, o⟩, b1⟩
    rintro ⟨⟩
    exact ⟨_, rfl⟩
  refine ⟨hf, ?_, ?_⟩
  · obtain ⟨e, hf⟩ := hf
    unfold getLeaderBroker
    revert hf
    rcases findLeader net t p b with ⟨o, b1⟩
    rintro ⟨⟩
    exact ⟨_, rfl⟩
  · unfold requestOffsets
    revert hr
    rcases requestMetaData net [t] b with ⟨⟨r, o⟩, b1⟩
    rintro ⟨⟩
    exact ⟨_, rfl⟩

/-- every request for metadata ends with the connection closed; node 2 refuses connections -/
def closedNet : Net Nat := demoNet (fun a => a = [98, 58, 49]) (fun _ _ => (demoMeta, some .eof)) (fun _ => [])

example : ∀ h w, ∃ e, (closedNet.metadata h [[116]] w).1.2 = some e ∧ e.isKafka = false := fun _ _ => ⟨.eof, rfl, rfl⟩
example : (getLeaderBroker closedNet [116] 0 (demoBrokers goodNet)).1 = .err (.wrapped (.wrapped .noAvailableBrokers)) := by
  decide +kernel

end Healer
