import Verif.Model.MultiConsumer
import Verif.Props.Brokers2

/-!
# C124-C126: the consumer without a group
-/

namespace Healer

/-! ## C124: the partitions consumed -/

/-- What the user asked for: the topic is assigned, and so is the partition, or the topic is assigned as a whole and has the partition. -/
def AskedFor (assign : AMap Bytes (List Int64)) (r : MetadataResponse) (t : Bytes) (p : Int) : Prop :=
  ∃ ps, (t, ps) ∈ assign ∧
    ((ps ≠ [] ∧ ∃ q ∈ ps, q.toInt = p) ∨ (ps = [] ∧ ∃ tm ∈ r.topics, tm.name = t ∧ ∃ x ∈ tm.partitions, x.partitionID.toInt = p))

/-- the answer names each topic asked for once, and no others, as Kafka's do -/
def Answers (topics : List Bytes) (r : MetadataResponse) : Prop := (r.topics.map TopicMetadata.name).Perm topics

theorem Int32.toInt64_toInt32 (x : Int32) : x.toInt64.toInt32 = x := by
  apply Int32.toInt_inj.1
  simp

theorem mem_partitionConsumers (assign : AMap Bytes (List Int64)) (hk : assign.keys.Nodup) (r : MetadataResponse)
    (ha : Answers assign.keys r) (hr : ∀ e ∈ assign, ∀ p ∈ e.2, 0 ≤ p.toInt ∧ p.toInt < 2 ^ 31) (t : Bytes) (p : Int32) :
    (t, p) ∈ partitionConsumers assign r.topics ↔ AskedFor assign r t p.toInt := by
  unfold partitionConsumers AskedFor
  simp only [List.mem_flatMap, List.mem_map, Prod.mk.injEq]
  constructor
  · rintro ⟨tm, htm, q, hq, rfl, rfl⟩
    have : tm.name ∈ assign.keys := ha.mem_iff.1 (List.mem_map.2 ⟨tm, htm, rfl⟩)
    obtain ⟨⟨t', ps⟩, he, hn⟩ := List.mem_map.1 this
    simp only at hn
    subst hn
    have hg := AMap.get_eq_some_of_mem _ hk _ _ he
    refine ⟨ps, he, ?_⟩
    unfold partitionsOf at hq
    rw [hg] at hq
    cases ps with
    | nil =>
      simp only [List.mem_map] at hq
      obtain ⟨x, hx, rfl⟩ := hq
      exact .inr ⟨rfl, tm, htm, rfl, x, hx, by rw [Int32.toInt64_toInt32]⟩
    | cons a ps =>
      refine .inl ⟨by simp, q, hq, ?_⟩
      have := hr _ he q hq
      rw [Int64.toInt_toInt32]
      rw [Int.bmod_eq_of_le] <;> omega
  · rintro ⟨ps, he, h⟩
    have : t ∈ assign.keys := List.mem_map.2 ⟨_, he, rfl⟩
    obtain ⟨tm, htm, hn⟩ := List.mem_map.1 (ha.mem_iff.2 this)
    have hg := AMap.get_eq_some_of_mem _ hk _ _ he
    rcases h with ⟨hne, q, hq, hqp⟩ | ⟨rfl, tm, htm, hn, x, hx, hxp⟩
    · refine ⟨tm, htm, q, ?_, hn, ?_⟩
      · unfold partitionsOf
        rw [hn, hg]
        cases ps with
        | nil => exact absurd rfl hne
        | cons a ps => exact hq
      · have := hr _ he q hq
        apply Int32.toInt_inj.1
        rw [Int64.toInt_toInt32, Int.bmod_eq_of_le] <;> omega
    · refine ⟨tm, htm, x.partitionID.toInt64, ?_, hn, ?_⟩
      · unfold partitionsOf
        rw [hn, hg]
        exact List.mem_map.2 ⟨x, hx, rfl⟩
      · rw [Int32.toInt64_toInt32]
        exact Int32.toInt_inj.1 hxp

theorem nodup_partitionConsumers (assign : AMap Bytes (List Int64)) (hk : assign.keys.Nodup) (r : MetadataResponse)
    (ha : Answers assign.keys r) (hr : ∀ e ∈ assign, ∀ p ∈ e.2, 0 ≤ p.toInt ∧ p.toInt < 2 ^ 31) (hd : ∀ e ∈ assign, e.2.Nodup)
    (hp : ∀ tm ∈ r.topics, (tm.partitions.map PartitionMetadataInfo.partitionID).Nodup) :
    (partitionConsumers assign r.topics).Nodup := by
  unfold partitionConsumers
  have hn : (r.topics.map TopicMetadata.name).Nodup := ha.nodup_iff.2 hk
  rw [List.nodup_flatMap]
  refine ⟨fun tm htm => ?_, ?_⟩
  · have : tm.name ∈ assign.keys := ha.mem_iff.1 (List.mem_map.2 ⟨tm, htm, rfl⟩)
    obtain ⟨⟨t', ps⟩, he, hn⟩ := List.mem_map.1 this
    simp only at hn
    subst hn
    have hg := AMap.get_eq_some_of_mem _ hk _ _ he
    unfold partitionsOf
    rw [hg]
    cases ps with
    | nil =>
      have := hp tm htm
      simp only [List.map_map]
      refine List.Nodup.of_map Prod.snd ?_
      rw [List.map_map]
      have h2 : (Prod.snd ∘ (fun p : Int64 => (tm.name, p.toInt32)) ∘ fun p : PartitionMetadataInfo => p.partitionID.toInt64) =
          PartitionMetadataInfo.partitionID := by
        funext x
        simp only [Function.comp_apply, Int32.toInt64_toInt32]
      rw [h2]
      exact this
    | cons a ps =>
      refine (List.nodup_map_iff_inj_on (hd _ he)).2 fun x hx y hy hxy => ?_
      have h1 := hr _ he x hx
      have h2 := hr _ he y hy
      have := congrArg (Int32.toInt ∘ Prod.snd) hxy
      simp only [Function.comp_apply, Int64.toInt_toInt32] at this
      rw [Int.bmod_eq_of_le (by omega) (by omega), Int.bmod_eq_of_le (by omega) (by omega)] at this
      exact Int64.toInt_inj.1 this
  · rw [List.Nodup, List.pairwise_map] at hn
    refine hn.imp fun hne => ?_
    intro x hx hy
    obtain ⟨_, -, rfl⟩ := List.mem_map.1 hx
    obtain ⟨_, -, h2⟩ := List.mem_map.1 hy
    exact hne (congrArg Prod.fst h2).symm

namespace Brokers

variable {W : Type} (net : Net W)

theorem metadataLoop_ok (ts : List Bytes) (is : List BrokerInfo) (b b' : Brokers W) (r : MetadataResponse)
    (h : metadataLoop net ts is b = ((r, none), b')) : ∃ k log, b'.log = log ++ [.metadata k ts (r, none)] := by
  induction is generalizing b with
  | nil => simp [metadataLoop] at h
  | cons i is ih =>
    unfold metadataLoop at h
    rcases hb : getBroker net i.nodeID b with ⟨_ | k, b1⟩
    · rw [hb] at h
      exact ih _ h
    · rw [hb] at h
      simp only at h
      rcases hm : askMetadata net k.1 ts b1 with ⟨⟨r', _ | e⟩, b2⟩
      · rw [hm] at h
        simp only [Prod.mk.injEq, and_true] at h
        obtain ⟨rfl, rfl⟩ := h
        unfold askMetadata at hm
        simp only [Prod.mk.injEq] at hm
        refine ⟨k.1, b1.log, ?_⟩
        rw [← hm.2]
        simp only
        rw [hm.1]
      · rw [hm] at h
        simp only at h
        split at h
        · simp at h
        · exact ih _ h

theorem requestMetaData_ok (ts : List Bytes) (b b' : Brokers W) (r : MetadataResponse)
    (h : requestMetaData net ts b = ((r, none), b')) : ∃ k log, b'.log = log ++ [.metadata k ts (r, none)] := by
  unfold requestMetaData at h
  exact metadataLoop_ok net ts _ _ _ _ h

theorem awaitMetadata_ok (ts : List Bytes) (n : Nat) (b b' : Brokers W) (r : MetadataResponse)
    (h : awaitMetadata net ts n b = (some r, b')) : ∃ k log, b'.log = log ++ [.metadata k ts (r, none)] := by
  induction n generalizing b with
  | zero => simp [awaitMetadata] at h
  | succ n ih =>
    unfold awaitMetadata at h
    rcases hm : requestMetaData net ts b with ⟨⟨r', _ | e⟩, b2⟩
    · rw [hm] at h
      simp only [Prod.mk.injEq, Option.some.injEq] at h
      obtain ⟨rfl, rfl⟩ := h
      exact requestMetaData_ok net ts _ _ _ hm
    · rw [hm] at h
      exact ih _ h

end Brokers

/-- C124: `Consume` asks for the metadata of the topics assigned; if the answer names each of them once, it makes one partition consumer
for each partition asked for, and no others.
Missing for the full statement: partition numbers out of range, numbers given twice and empty lists (`C124_violated_*`). -/
theorem C124_partial {W : Type} (net : Net W) (assign : AMap Bytes (List Int64)) (hk : assign.keys.Nodup)
    (hr : ∀ e ∈ assign, ∀ p ∈ e.2, 0 ≤ p.toInt ∧ p.toInt < 2 ^ 31) (tries : Nat) (b b' : Brokers W) (l : List (Bytes × Int32))
    (h : b.consumeChoose net assign tries = (some l, b')) :
    ∃ k ts r log, b'.log = log ++ [.metadata k ts (r, none)] ∧ ts.Perm assign.keys ∧
      (Answers ts r → (∀ t p, (t, p) ∈ l ↔ AskedFor assign r t p.toInt) ∧
        ((∀ e ∈ assign, e.2.Nodup) → (∀ tm ∈ r.topics, (tm.partitions.map PartitionMetadataInfo.partitionID).Nodup) → l.Nodup)) := by
  unfold Brokers.consumeChoose Brokers.order at h
  simp only at h
  rcases hm : Brokers.awaitMetadata net (net.shuffle assign.keys b.world).1 tries { b with world := (net.shuffle assign.keys b.world).2 } with ⟨_ | r, b2⟩
  · rw [hm] at h; simp at h
  · rw [hm] at h
    simp only [Prod.mk.injEq, Option.some.injEq] at h
    obtain ⟨rfl, rfl⟩ := h
    obtain ⟨k, log, hl⟩ := Brokers.awaitMetadata_ok net _ _ _ _ _ hm
    have hp := net.shuffle_perm assign.keys b.world
    refine ⟨k, _, r, log, hl, hp, fun ha => ?_⟩
    have ha : Answers assign.keys r := ha.trans hp
    exact ⟨fun t p => mem_partitionConsumers assign hk r ha hr t p, fun hd hq => nodup_partitionConsumers assign hk r ha hr hd hq⟩

theorem subscribeTo_mem (topics : List Bytes) : (∀ t ps, (t, ps) ∈ subscribeTo topics ↔ t ∈ topics ∧ ps = []) ∧ (subscribeTo topics).keys.Nodup := by
  have key : ∀ (l : List Bytes) (m : AMap Bytes (List Int64)), m.keys.Nodup → (∀ e ∈ m, e.2 = []) →
      (l.foldl (fun m t => m.set t []) m).keys.Nodup ∧ (∀ e ∈ l.foldl (fun m t => m.set t []) m, e.2 = []) ∧
      ∀ t, t ∈ (l.foldl (fun m t => m.set t []) m).keys ↔ t ∈ m.keys ∨ t ∈ l := by
    intro l
    induction l with
    | nil => intro m h1 h2; exact ⟨h1, h2, by simp⟩
    | cons a l ih =>
      intro m h1 h2
      have h3 : (m.set a []).keys.Nodup := AMap.nodup_keys_set m a [] h1
      have h4 : ∀ e ∈ m.set a [], e.2 = [] := by
        intro e he
        have := AMap.get_eq_some_of_mem _ h3 e.1 e.2 he
        rw [AMap.get_set] at this
        split at this
        · exact (Option.some.inj this).symm
        · exact h2 _ (AMap.mem_of_get_eq_some _ _ _ this)
      obtain ⟨i1, i2, i3⟩ := ih _ h3 h4
      refine ⟨i1, i2, fun t => ?_⟩
      rw [List.foldl_cons, i3, AMap.keys_set]
      split
      · rename_i hm
        simp only [List.mem_cons]
        constructor
        · rintro (h | h)
          · exact .inl h
          · exact .inr (.inr h)
        · rintro (h | rfl | h)
          · exact .inl h
          · exact .inl hm
          · exact .inr h
      · simp [or_assoc]
  obtain ⟨k1, k2, k3⟩ := key topics [] (by simp [AMap.keys]) (by simp)
  refine ⟨fun t ps => ⟨fun h => ⟨?_, k2 _ h⟩, ?_⟩, k1⟩
  · have := (k3 t).1 (List.mem_map.2 ⟨_, h, rfl⟩)
    simpa [AMap.keys] using this
  · rintro ⟨h, rfl⟩
    obtain ⟨⟨t', ps⟩, he, hn⟩ := List.mem_map.1 ((k3 t).2 (.inr h))
    have := k2 _ he
    simp only at this hn
    subst this hn
    exact he

/-- C124 for `Subscribe` and the topics given to `NewConsumer`: the answer names each topic once and each partition of a topic once;
then there is one partition consumer for each partition of the topics, and no others. -/
theorem C124_subscribe {W : Type} (net : Net W) (topics : List Bytes) (tries : Nat) (b b' : Brokers W) (l : List (Bytes × Int32))
    (h : b.consumeChoose net (subscribeTo topics) tries = (some l, b')) :
    ∃ k ts r log, b'.log = log ++ [.metadata k ts (r, none)] ∧ ts.Nodup ∧ (∀ t, t ∈ ts ↔ t ∈ topics) ∧
      (Answers ts r → (∀ tm ∈ r.topics, (tm.partitions.map PartitionMetadataInfo.partitionID).Nodup) →
        l.Nodup ∧ ∀ t p, (t, p) ∈ l ↔ ∃ tm ∈ r.topics, tm.name = t ∧ ∃ x ∈ tm.partitions, x.partitionID = p) := by
  obtain ⟨hs, hk⟩ := subscribeTo_mem topics
  have he : ∀ e ∈ subscribeTo topics, e.2 = [] := fun e he => ((hs e.1 e.2).1 he).2
  obtain ⟨k, ts, r, log, hl, hp, hc⟩ := C124_partial net (subscribeTo topics) hk (fun e h p hp => by rw [he e h] at hp; cases hp) tries b b' l h
  have hts : ∀ t, t ∈ ts ↔ t ∈ topics := by
    intro t
    rw [hp.mem_iff]
    constructor
    · intro h
      obtain ⟨⟨t', ps⟩, h1, rfl⟩ := List.mem_map.1 h
      exact ((hs _ _).1 h1).1
    · intro h
      exact List.mem_map.2 ⟨(t, []), (hs _ _).2 ⟨h, rfl⟩, rfl⟩
  refine ⟨k, ts, r, log, hl, hp.nodup_iff.2 hk, hts, fun ha hq => ?_⟩
  obtain ⟨h1, h2⟩ := hc ha
  refine ⟨h2 (fun e h => by rw [he e h]; exact List.nodup_nil) hq, fun t p => ?_⟩
  rw [h1]
  unfold AskedFor
  constructor
  · rintro ⟨ps, hm, ⟨hne, -⟩ | ⟨-, tm, htm, hn, x, hx, hxp⟩⟩
    · exact absurd ((hs _ _).1 hm).2 hne
    · exact ⟨tm, htm, hn, x, hx, Int32.toInt_inj.1 hxp⟩
  · rintro ⟨tm, htm, hn, x, hx, hxp⟩
    have : t ∈ topics := by
      rw [← hts, ← ha.mem_iff, ← hn]
      exact List.mem_map.2 ⟨tm, htm, rfl⟩
    exact ⟨[], (hs _ _).2 ⟨this, rfl⟩, .inr ⟨rfl, tm, htm, hn, x, hx, by rw [hxp]⟩⟩

/-- what `Consume` makes with the cluster of the examples, whose topic `t` has the partitions of `demoMeta` -/
example : (Brokers.consumeChoose goodNet (subscribeTo [[116], [116]]) 1 (demoBrokers goodNet)).1 =
    some (demoMeta.topics.flatMap fun t => t.partitions.map fun p => ([116], p.partitionID)) := by decide +kernel

/-- an answer with two partitions of one topic -/
def twoPartitions : MetadataResponse := ⟨0, 0, [], [], 0, [⟨0, [116], false, [⟨0, 0, 1, 0, [], [], []⟩, ⟨0, 1, 1, 0, [], [], []⟩]⟩]⟩

example : partitionConsumers [([116], [1])] twoPartitions.topics = [([116], 1)] := by decide +kernel

/-- C124 does not hold for an empty list of partitions: all are consumed. -/
theorem C124_violated_empty : partitionConsumers [([116], [])] twoPartitions.topics = [([116], 0), ([116], 1)] := by decide +kernel

/-- C124 does not hold for partition numbers beyond 32 bits: another partition is consumed. -/
theorem C124_violated_wrap : partitionConsumers [([116], [4294967297])] twoPartitions.topics = [([116], 1)] := by decide +kernel

/-- C124 does not hold for a partition given twice: it is consumed twice. -/
theorem C124_violated_twice : partitionConsumers [([116], [1, 1])] twoPartitions.topics = [([116], 1), ([116], 1)] := by decide +kernel

/-! ## C125, C126: closing -/

theorem MC.run_induction {calm : Bool} {P : MC → Prop} (hs : ∀ a s s', MC.step calm a s = some s' → P s → P s') :
    ∀ (as : List MultiAct) (s s' : MC), MC.run calm as s = some s' → P s → P s' := by
  intro as
  induction as with
  | nil => intro s s' h hp; cases h; exact hp
  | cons a as ih =>
    intro s s' h hp
    unfold MC.run at h
    cases h1 : MC.step calm a s with
    | none => rw [h1] at h; cases h
    | some t => rw [h1] at h; exact ih t s' h (hs _ _ _ h1 hp)

/-- what holds at each place of `Consume` and `AwaitClose` -/
structure MultiInv (s : MC) : Prop where
  sane : s.crashed = false
  closed : s.closed = true ↔ s.close ≠ .none
  idle : s.close = .none → s.consume = .idle → s.started = s.consumers ∧ s.counter = s.consumers.length
  asking : s.close = .none → s.consume = .asking ∨ s.consume = .checking → s.started = [] ∧ s.counter = 0 ∧ s.consumers = []
  making : s.close = .none → ∀ n, s.consume = .making n → s.started = [] ∧ s.counter = 0
  starting : s.close = .none → ∀ rest, s.consume = .starting rest → s.started ++ rest = s.consumers ∧ s.counter = s.started.length
  fresh : s.close = .none → s.stopped = []
  stopping : ∀ rest, s.close = .stopping rest → s.consume = .idle ∧ s.stopped ++ rest = s.started ∧ s.counter = rest.length
  closedBy : s.close = .waiting ∨ s.close = .done ∨ s.close = .timedOut →
    (s.consume = .idle ∨ s.consume = .asking ∨ s.consume = .checking) ∧ s.stopped = s.started ∧ s.counter = 0

theorem MultiInv.init : MultiInv {} := by constructor <;> simp

theorem MultiInv.step {a : MultiAct} {s s' : MC} (h : s.step true a = some s') (hi : MultiInv s) : MultiInv s' := by
  obtain ⟨h1, h2, h3, h4, h5, h6, h7, h8, h9⟩ := hi
  unfold MC.step at h
  rw [h1] at h
  simp only [Bool.false_eq_true, if_false] at h
  cases a with
  | consume =>
    simp only at h
    split at h
    · rename_i hc
      obtain ⟨c1, c2⟩ := hc
      cases h
      rcases c2 trivial with ⟨c2, c3⟩ | c3 | c3
      · have := h3 c3 c1
        constructor <;> simp_all
      · constructor <;> simp_all
      · constructor <;> simp_all
    · cases h
  | step ok n =>
    simp only [MC.consumeStep] at h
    have hcl : s.consume ≠ .idle → s.consume ≠ .asking → s.consume ≠ .checking → s.close = .none := by
      intro i1 i2 i3
      cases hc : s.close with
      | none => rfl
      | stopping rest => exact absurd (h8 rest hc).1 i1
      | waiting => rcases (h9 (.inl hc)).1 with h | h | h <;> contradiction
      | done => rcases (h9 (.inr (.inl hc))).1 with h | h | h <;> contradiction
      | timedOut => rcases (h9 (.inr (.inr hc))).1 with h | h | h <;> contradiction
    split at h
    · cases h
    · rename_i hw
      repeat' split at h
      all_goals
        cases h
        constructor <;> simp_all
    · rename_i hw
      split at h
      · rename_i hcd
        have hne := h2.1 hcd
        cases h
        constructor <;> simp_all
      · rename_i hcd
        have hne : s.close = .none := by
          by_cases hc : s.close = .none
          · exact hc
          · exact absurd (h2.2 hc) hcd
        cases h
        constructor <;> simp_all
    · rename_i k hw
      have hne := hcl (by simp [hw]) (by simp [hw]) (by simp [hw])
      have := h5 hne _ hw
      split at h
      all_goals
        cases h
        constructor <;> simp_all
    · rename_i hw
      have hne := hcl (by simp [hw]) (by simp [hw]) (by simp [hw])
      have := h5 hne _ hw
      cases h
      constructor <;> simp_all
    · rename_i i rest hw
      have hne := hcl (by simp [hw]) (by simp [hw]) (by simp [hw])
      have := h6 hne _ hw
      cases h
      constructor <;> simp_all
    · rename_i hw
      have hne := hcl (by simp [hw]) (by simp [hw]) (by simp [hw])
      have := h6 hne _ hw
      cases h
      constructor <;> simp_all
  | close =>
    simp only at h
    split at h
    · rename_i hc
      obtain ⟨c1, c2⟩ := hc
      obtain ⟨c2, c3⟩ := c2 trivial
      have i3 := h3 c3 c2
      have i7 := h7 c3
      cases h
      constructor <;> simp_all
    · cases h
  | closeStep timeout =>
    simp only [MC.closeNext] at h
    split at h
    · cases h
    · cases h
    · cases h
    · rename_i i rest hc
      have i8 := h8 _ hc
      cases h
      constructor <;> simp_all [MC.stopOne]
    · rename_i hc
      have i8 := h8 _ hc
      cases h
      constructor <;> simp_all
    · rename_i hc
      have i9 := h9 (.inl hc)
      split at h
      · cases h
        constructor <;> simp_all
      · split at h
        · cases h
          constructor <;> simp_all
        · cases h

/-- C125: if `Consume` is called once, and `AwaitClose` once, when `Consume` is not running, nothing crashes; and when all partition
consumers are stopped the counter is zero, so that `AwaitClose` need not wait for its timeout.
Missing for the full statement: `AwaitClose` called twice or while `Consume` runs (`C125_violated_*`). -/
theorem C125_partial (as : List MultiAct) (s : MC) (h : MC.run true as {} = some s) :
    s.crashed = false ∧ (s.close = .waiting → s.closeNext false = some { s with close := .done }) := by
  have hi := MC.run_induction (P := MultiInv) (fun _ _ _ hs hi => hi.step hs) as {} s h .init
  refine ⟨hi.sane, fun hw => ?_⟩
  have := (hi.closedBy (.inl hw)).2.2
  simp [MC.closeNext, hw, this]

/-- C126: under the same condition, when `AwaitClose` has returned every partition consumer ever started has been stopped, each once, and none
is started afterwards.
Missing for the full statement: `AwaitClose` while `Consume` runs, and calling `Consume` twice (`C126_violated_*`). -/
theorem C126_partial (as : List MultiAct) (s : MC) (h : MC.run true as {} = some s) (hd : s.close = .done ∨ s.close = .timedOut) :
    s.stopped = s.started ∧ ∀ bs s', MC.run true bs s = some s' → s'.started = s.started := by
  have hi := MC.run_induction (P := MultiInv) (fun _ _ _ hs hi => hi.step hs) as {} s h .init
  refine ⟨(hi.closedBy (.inr hd)).2.1, fun bs s' hr => ?_⟩
  have := MC.run_induction (P := fun t => MultiInv t ∧ (t.close = .done ∨ t.close = .timedOut) ∧ t.started = s.started)
    (fun a t t' hs ht => ?_) bs s s' hr ⟨hi, hd, rfl⟩
  · exact this.2.2
  · obtain ⟨i, d, e⟩ := ht
    refine ⟨i.step hs, ?_⟩
    obtain ⟨c, -, -⟩ := i.closedBy (.inr d)
    unfold MC.step at hs
    rw [i.sane] at hs
    simp only [Bool.false_eq_true, if_false] at hs
    cases a with
    | consume =>
      simp only at hs
      split at hs
      · cases hs; exact ⟨d, e⟩
      · cases hs
    | step ok n =>
      simp only [MC.consumeStep] at hs
      rcases c with c | c | c
      · rw [c] at hs; cases hs
      · rw [c] at hs
        simp only at hs
        repeat' split at hs
        all_goals (cases hs; exact ⟨d, e⟩)
      · rw [c] at hs
        simp only at hs
        repeat' split at hs
        all_goals (cases hs; exact ⟨d, e⟩)
    | close =>
      simp only at hs
      split at hs
      · rename_i hc
        have := (hc.2 trivial).2
        rcases d with d | d <;> rw [d] at this <;> cases this
      · cases hs
    | closeStep timeout =>
      rcases d with d | d <;> simp [MC.closeNext, d] at hs

/-- `Consume` with two partitions, to its end -/
def consumeTwo : List MultiAct := [.consume, .step true 0, .step true 2, .step true 0, .step true 0, .step true 0, .step true 0, .step true 0, .step true 0]

/-- consumed, closed -/
example : (MC.run true (consumeTwo ++ [.close, .closeStep false, .closeStep false, .closeStep false, .closeStep false]) {}).map
    (fun s => (s.started, s.stopped, s.counter, s.close, s.consume)) = some ([0, 1], [0, 1], 0, .done, .idle) := by decide +kernel

/-- C125 does not hold for two calls of `AwaitClose`: each partition consumer is counted down again. -/
theorem C125_violated_twice : (MC.run false (consumeTwo ++ [.close, .closeStep false, .closeStep false, .closeStep false, .closeStep false,
    .close, .closeStep false]) {}).map MC.crashed = some true := by decide +kernel

/-- C125 does not hold for `AwaitClose` while `Consume` runs: a partition consumer is made but not yet counted. -/
theorem C125_violated_racing : (MC.run false [.consume, .step true 0, .step true 2, .step true 0, .close, .closeStep false] {}).map MC.crashed =
    some true := by decide +kernel

/-- C126 does not hold for `AwaitClose` while `Consume` runs: partition consumers are started after it has returned. -/
theorem C126_violated_racing : (MC.run false [.consume, .step true 0, .step true 1, .close, .closeStep false, .closeStep false,
    .step true 0, .step true 0, .step true 0, .step true 0] {}).map (fun s => (s.close, s.started, s.stopped)) = some (.done, [0], []) := by
  decide +kernel

/-- C126 does not hold if `Consume` is called twice: the first partition consumers are forgotten, `AwaitClose` does not stop them and
waits for them until its timeout. -/
theorem C126_violated_twice : (MC.run false (consumeTwo ++ [.consume, .step true 0, .step true 1, .step true 0, .step true 0, .step true 0, .step true 0,
    .close, .closeStep false, .closeStep false]) {}).map (fun s => (s.close, s.started, s.stopped, s.closeNext false)) =
    some (.waiting, [0, 1, 2], [2], none) := by decide +kernel

end Healer
