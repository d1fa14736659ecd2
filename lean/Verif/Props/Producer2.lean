import Verif.Props.Producer
import Verif.Props.Brokers2

/-!
# C51, C52, C106 – C108: which partition and which connection; C48 and C49 for the producer of a topic
-/

namespace Healer

/-- the partitions of the topic, as last learned -/
def latest (log : List Routed) : List PartitionMetadataInfo :=
  log.foldl (fun ps e => match e with
    | .metadata qs => qs
    | _ => ps) []

theorem latest_snoc (log : List Routed) (e : Routed) : latest (log ++ [e]) = (match e with
    | .metadata qs => qs
    | _ => latest log) := by
  simp only [latest, List.foldl_append, List.foldl_cons, List.foldl_nil]

/-- What is required of an event, given what happened before. -/
def RoutedWell (hash : Bytes → UInt32) (pre : List Routed) : Routed → Prop
  | .added (some k) (some (pid, _)) _ => (latest pre).length < 2 ^ 31 →
      0 < (latest pre).length ∧ pid.toInt = ((hash k).toNat % (latest pre).length : Nat)
  | .opened pid node => (∃ x, (latest pre).find? (fun x => x.partitionID = pid) = some x ∧ x.errorCode = 0 ∧ x.leader = node) ∧
      .connected node ∈ pre
  | _ => True

/-- every event is as required -/
def AllRouted (hash : Bytes → UInt32) (log : List Routed) : Prop :=
  ∀ pre e post, log = pre ++ e :: post → RoutedWell hash pre e

theorem AllRouted.snoc {hash : Bytes → UInt32} {log : List Routed} {e : Routed} (h : AllRouted hash log) (he : RoutedWell hash log e) :
    AllRouted hash (log ++ [e]) := by
  intro pre x post hx
  rcases List.append_eq_append_iff.1 hx with ⟨a, h1, h2⟩ | ⟨a, h1, h2⟩
  · cases a with
    | nil =>
      simp only [List.append_nil, List.nil_append, List.cons.injEq] at h1 h2
      rw [h1, ← h2.1]; exact he
    | cons y a => simp at h2
  · cases a with
    | nil =>
      simp only [List.append_nil, List.nil_append, List.cons.injEq] at h1 h2
      rw [← h1, h2.1]; exact he
    | cons y a =>
      simp only [List.cons_append, List.cons.injEq] at h2
      rw [← h2.1] at h1
      exact h pre x a h1

structure ProducerInv (hash : Bytes → UInt32) (p : Producer) : Prop where
  known : p.partitions = latest p.log
  keyed : ∀ pid i, AMap.get p.keyed pid = some i → ∃ l, p.lines[i]? = some l ∧ l.partition = pid
  leaders : ∀ id node, AMap.get p.leaders id = some node → node = id ∧ .connected node ∈ p.log
  events : AllRouted hash p.log

theorem find_leader {pid l : Int32} : ∀ {ps : List PartitionMetadataInfo}, getLeaderID pid ps = .ok l →
    ∃ x, ps.find? (fun x => x.partitionID = pid) = some x ∧ x.errorCode = 0 ∧ x.leader = l
  | [], h => by simp [getLeaderID] at h
  | x :: xs, h => by
    rw [getLeaderID] at h
    split at h
    · rename_i hx
      split at h
      · rename_i h0
        exact ⟨x, by simp [hx], h0, Except.ok.inj h⟩
      · cases h
    · rename_i hx
      obtain ⟨y, h1, h2⟩ := find_leader h
      exact ⟨y, by rw [List.find?_cons_of_neg (by simpa using hx)]; exact h1, h2⟩

theorem lines_append {ls : List Line} {i : Nat} {l x : Line} (h : ls[i]? = some l) : (ls ++ [x])[i]? = some l := by
  have : i < ls.length := by
    rcases Nat.lt_or_ge i ls.length with h' | h'
    · exact h'
    · rw [List.getElem?_eq_none h'] at h; cases h
  rw [List.getElem?_append_left this, h]

theorem ProducerInv.openLine {hash : Bytes → UInt32} {p : Producer} (hi : ProducerInv hash p) (pid node : Int32)
    (hl : ∃ x, p.partitions.find? (fun x => x.partitionID = pid) = some x ∧ x.errorCode = 0 ∧ x.leader = node)
    (hc : .connected node ∈ p.log) :
    ProducerInv hash (p.openLine pid node).2 ∧ ∃ i l, (p.openLine pid node).1 = .ok i ∧
      (p.openLine pid node).2.lines[i]? = some l ∧ l.partition = pid := by
  constructor
  · refine ⟨?_, ?_, ?_, ?_⟩
    · simp only [Producer.openLine, latest_snoc]; exact hi.known
    · intro pid' i h
      simp only [Producer.openLine] at h ⊢
      rw [AMap.get_set] at h
      split at h
      · rename_i he
        cases h
        exact ⟨⟨pid, some node, false⟩, by simp, he.symm⟩
      · obtain ⟨l, h1, h2⟩ := hi.keyed pid' i h
        exact ⟨l, lines_append h1, h2⟩
    · intro id n h
      simp only [Producer.openLine] at h ⊢
      obtain ⟨h1, h2⟩ := hi.leaders id n h
      exact ⟨h1, List.mem_append_left _ h2⟩
    · simp only [Producer.openLine]
      exact hi.events.snoc ⟨hi.known ▸ hl, hc⟩
  · exact ⟨p.lines.length, ⟨pid, some node, false⟩, rfl, by simp [Producer.openLine], rfl⟩

theorem ProducerInv.newLine {hash : Bytes → UInt32} {p : Producer} (hi : ProducerInv hash p) (pid : Int32) (connected : Option Err) :
    ProducerInv hash (p.newLine pid connected).2 ∧ (∀ i, (p.newLine pid connected).1 = .ok i →
      ∃ l, (p.newLine pid connected).2.lines[i]? = some l ∧ l.partition = pid) ∧
      (p.newLine pid connected).2.partitions = p.partitions := by
  rw [Producer.newLine]
  split
  · exact ⟨hi, fun i h => (by cases h), rfl⟩
  · rename_i leader hlead
    have hf := find_leader hlead
    split
    · rename_i node hnode
      obtain ⟨rfl, h2⟩ := hi.leaders _ _ hnode
      obtain ⟨g1, i, l, g2, g3, g4⟩ := hi.openLine pid node hf h2
      refine ⟨g1, fun j hj => ?_, rfl⟩
      rw [g2] at hj
      cases hj
      exact ⟨l, g3, g4⟩
    · split
      · exact ⟨hi, fun i h => (by cases h), rfl⟩
      · have hi' : ProducerInv hash { p with leaders := AMap.set p.leaders leader leader, log := p.log ++ [.connected leader] } := by
          refine ⟨?_, hi.keyed, ?_, hi.events.snoc trivial⟩
          · simp only [latest_snoc]; exact hi.known
          · intro id n h
            simp only at h ⊢
            rw [AMap.get_set] at h
            split at h
            · rename_i he
              cases h
              exact ⟨he.symm, by simp⟩
            · obtain ⟨h1, h2⟩ := hi.leaders id n h
              exact ⟨h1, List.mem_append_left _ h2⟩
        obtain ⟨g1, i, l, g2, g3, g4⟩ := hi'.openLine pid leader hf (by simp)
        refine ⟨g1, fun j hj => ?_, rfl⟩
        rw [g2] at hj
        cases hj
        exact ⟨l, g3, g4⟩

theorem partitionOf_eq {hash : Bytes → UInt32} {k : Bytes} {ps : List PartitionMetadataInfo} {pid : Int32}
    (h : partitionOf hash k ps = .ok pid) (hn : ps.length < 2 ^ 31) :
    0 < ps.length ∧ pid.toInt = ((hash k).toNat % ps.length : Nat) := by
  rw [partitionOf] at h
  split at h
  · cases h
  · rename_i h0
    have hl : (UInt32.ofNat ps.length).toNat = ps.length := by
      rw [UInt32.toNat_ofNat']; omega
    have hp : 0 < ps.length := by
      rcases Nat.eq_zero_or_pos ps.length with hz | hz
      · rw [hz] at h0; exact absurd rfl h0
      · exact hz
    refine ⟨hp, ?_⟩
    cases h
    have hlt : (hash k % UInt32.ofNat ps.length).toNat < 2 ^ 31 := by
      rw [UInt32.toNat_mod, hl]
      exact Nat.lt_trans (Nat.mod_lt _ hp) hn
    have : (hash k % UInt32.ofNat ps.length).toInt32.toInt = ((hash k % UInt32.ofNat ps.length).toNat : Int) := by
      rw [show (hash k % UInt32.ofNat ps.length).toInt32.toInt = Int.bmod ((hash k % UInt32.ofNat ps.length).toNat) (2 ^ 32) from
        BitVec.toInt_eq_toNat_bmod _]
      exact Int.bmod_eq_of_le (by omega) (by omega)
    rw [this, UInt32.toNat_mod, hl]

theorem ProducerInv.addMessage {hash : Bytes → UInt32} (key : Option Bytes) (connected : Option Err) :
    ∀ (n : Nat) (p : Producer), ProducerInv hash p → ∀ r, p.addMessage hash key connected n = .ok r → ProducerInv hash r.2
  | 0, p, hi, r, h => by
    rw [Producer.addMessage] at h
    cases h
    refine ⟨by simp only [latest_snoc]; exact hi.known, hi.keyed, fun id m h => ⟨(hi.leaders id m h).1, List.mem_append_left _ (hi.leaders id m h).2⟩,
      hi.events.snoc (by cases key <;> trivial)⟩
  | n + 1, p, hi, r, h => by
    rw [Producer.addMessage] at h
    have finish : ∀ (q : Producer) (i : Nat) (l : Line), ProducerInv hash q → q.lines[i]? = some l →
        (∀ k, key = some k → ∃ pid, partitionOf hash k q.partitions = .ok pid ∧ l.partition = pid) →
        (if l.closed = true then Producer.addMessage hash key connected n q
          else .ok (none, { q with log := q.log ++ [.added key (some (l.partition, l.leader)) none] })) = .ok r →
        ProducerInv hash r.2 := by
      intro q i l hq hl hk hr
      split at hr
      · exact ProducerInv.addMessage key connected n q hq r hr
      · cases hr
        refine ⟨by simp only [latest_snoc]; exact hq.known, hq.keyed,
          fun id m h => ⟨(hq.leaders id m h).1, List.mem_append_left _ (hq.leaders id m h).2⟩, hq.events.snoc ?_⟩
        cases key with
        | none => trivial
        | some k =>
          intro hn
          obtain ⟨pid, h1, h2⟩ := hk k rfl
          rw [← hq.known] at hn ⊢
          rw [h2]
          exact partitionOf_eq h1 hn
    cases key with
    | none =>
      simp only [Producer.getLine] at h
      cases hc : p.current with
      | none => simp only [hc] at h; cases h
      | some i =>
        rw [hc] at h
        simp only at h
        cases hl : p.lines[i]? with
        | none => simp only [hl] at h; cases h
        | some l =>
          simp only [hl] at h
          exact finish p i l hi hl (fun k hk => by cases hk) h
    | some k =>
      simp only [Producer.getLine] at h
      cases hp : partitionOf hash k p.partitions with
      | panic => simp only [hp] at h; cases h
      | err e => simp only [hp] at h; cases h
      | ok pid =>
        simp only [hp] at h
        cases hg : AMap.get p.keyed pid with
        | some i =>
          simp only [hg] at h
          cases hl : p.lines[i]? with
          | none => simp only [hl] at h; cases h
          | some l =>
            simp only [hl] at h
            obtain ⟨l', h1, h2⟩ := hi.keyed pid i hg
            rw [hl] at h1
            cases h1
            exact finish p i l hi hl (fun k' hk => by cases hk; exact ⟨pid, hp, h2⟩) h
        | none =>
          simp only [hg] at h
          obtain ⟨g1, g2, g3⟩ := hi.newLine pid connected
          rcases hx : p.newLine pid connected with ⟨a, q⟩
          rw [hx] at h g1 g2 g3
          cases a with
          | error e =>
            simp only at h
            cases h
            exact ⟨by simp only [latest_snoc]; exact g1.known, g1.keyed,
              fun id m h => ⟨(g1.leaders id m h).1, List.mem_append_left _ (g1.leaders id m h).2⟩, g1.events.snoc trivial⟩
          | ok i =>
            simp only at h g1 g2 g3
            obtain ⟨l, h1, h2⟩ := g2 i rfl
            simp only [h1] at h
            exact finish q i l g1 h1 (fun k' hk => by cases hk; exact ⟨pid, by rw [g3]; exact hp, h2⟩) h

theorem closeLine_get {ls : List Line} {i j : Nat} {l : Line} (h : ls[i]? = some l) :
    ∃ l', (closeLine ls j)[i]? = some l' ∧ l'.partition = l.partition ∧ l'.leader = l.leader := by
  simp only [closeLine, List.getElem?_modify, h]
  by_cases hj : j = i
  · exact ⟨{ l with closed := true }, by simp [hj], rfl, rfl⟩
  · exact ⟨l, by simp [hj], rfl, rfl⟩

theorem closeLines_get {is : List Nat} : ∀ {ls : List Line} {i : Nat} {l : Line}, ls[i]? = some l →
    ∃ l', (is.foldl closeLine ls)[i]? = some l' ∧ l'.partition = l.partition ∧ l'.leader = l.leader := by
  induction is with
  | nil => exact fun {_ _ l} h => ⟨l, h, rfl, rfl⟩
  | cons j is ih =>
    intro ls i l h
    obtain ⟨l1, h1, h2, h3⟩ := closeLine_get (j := j) h
    obtain ⟨l2, g1, g2, g3⟩ := ih h1
    exact ⟨l2, g1, g2.trans h2, g3.trans h3⟩

theorem ProducerInv.step {hash : Bytes → UInt32} {p q : Producer} (hi : ProducerInv hash p) (a : RouteAct) (h : p.step hash a = .ok q) :
    ProducerInv hash q := by
  cases a with
  | add key connected =>
    simp only [Producer.step] at h
    cases hr : p.addMessage hash key connected 3 with
    | ok r =>
      rw [hr] at h
      cases h
      exact ProducerInv.addMessage key connected 3 p hi r hr
    | err e => rw [hr] at h; cases h
    | panic => rw [hr] at h; cases h
  | close =>
    simp only [Producer.step] at h
    cases h
    refine ⟨by simp only [Producer.close, latest_snoc]; exact hi.known, ?_,
      fun id m h => ⟨(hi.leaders id m h).1, List.mem_append_left _ (hi.leaders id m h).2⟩, hi.events.snoc trivial⟩
    intro pid i hg
    obtain ⟨l, h1, h2⟩ := hi.keyed pid i hg
    simp only [Producer.close]
    cases hc : p.current with
    | none =>
      obtain ⟨l', g1, g2, -⟩ := closeLines_get (is := p.keyed.map Prod.snd) h1
      exact ⟨l', g1, g2.trans h2⟩
    | some j =>
      obtain ⟨l1, f1, f2, -⟩ := closeLine_get (j := j) h1
      obtain ⟨l', g1, g2, -⟩ := closeLines_get (is := p.keyed.map Prod.snd) f1
      exact ⟨l', g1, g2.trans (f2.trans h2)⟩
  | update answer pick found connected =>
    simp only [Producer.step, Producer.update] at h
    cases answer with
    | error e => cases h; exact hi
    | ok r =>
      simp only at h
      cases he : r.error with
      | some e => simp only [he] at h; cases h; exact hi
      | none =>
        cases ht : r.topics with
        | nil => simp only [he, ht] at h; cases h
        | cons t ts =>
          simp only [he, ht] at h
          cases hp : pickPartition pick t.partitions with
          | err e => simp only [hp] at h; cases h
          | panic => simp only [hp] at h; cases h
          | ok pid =>
            simp only [hp] at h
            cases h
            have hi' : ProducerInv hash { p with partitions := t.partitions, log := p.log ++ [.metadata t.partitions] } :=
              ⟨by simp only [latest_snoc], hi.keyed,
                fun id m h => ⟨(hi.leaders id m h).1, List.mem_append_left _ (hi.leaders id m h).2⟩, hi.events.snoc trivial⟩
            cases createLeader found connected with
            | error e => exact hi'
            | ok leader =>
              refine ⟨hi'.known, ?_, hi'.leaders, hi'.events⟩
              intro pid' i hg
              obtain ⟨l, h1, h2⟩ := hi'.keyed pid' i hg
              simp only [replaceCurrent]
              cases p.current with
              | none => exact ⟨l, lines_append h1, h2⟩
              | some j =>
                obtain ⟨l1, f1, f2, -⟩ := closeLine_get (j := j) h1
                exact ⟨l1, lines_append f1, f2.trans h2⟩

theorem ProducerInv.run {hash : Bytes → UInt32} : ∀ (as : List RouteAct) (p q : Producer), ProducerInv hash p → p.run hash as = .ok q →
    ProducerInv hash q
  | [], _, _, hi, h => by rw [Producer.run] at h; cases h; exact hi
  | a :: as, p, q, hi, h => by
    rw [Producer.run] at h
    cases hs : p.step hash a with
    | ok p' =>
      rw [hs] at h
      exact ProducerInv.run as p' q (hi.step a hs) h
    | err e => rw [hs] at h; cases h
    | panic => rw [hs] at h; cases h

theorem allRouted {hash : Bytes → UInt32} {as : List RouteAct} {q : Producer} (h : Producer.run hash as {} = .ok q) : AllRouted hash q.log :=
  (ProducerInv.run as {} q ⟨rfl, fun _ _ h => (nomatch h), fun _ _ h => (nomatch h),
    fun pre e post h => (by simp at h)⟩ h).events

/-! ## C51 -/

/-- C51: keys whose hashes agree modulo the number of partitions go to the same partition while that number is
unchanged; in particular equal keys do. -/
theorem C51_same_partition (hash : Bytes → UInt32) (as : List RouteAct) (q : Producer) (h : Producer.run hash as {} = .ok q)
    (pre₁ pre₂ post₁ post₂ : List Routed) (k₁ k₂ : Bytes) (pid₁ pid₂ : Int32) (n₁ n₂ : Option Int32) (r₁ r₂ : Option Err)
    (h₁ : q.log = pre₁ ++ .added (some k₁) (some (pid₁, n₁)) r₁ :: post₁)
    (h₂ : q.log = pre₂ ++ .added (some k₂) (some (pid₂, n₂)) r₂ :: post₂)
    (hn : (latest pre₁).length = (latest pre₂).length) (hlt : (latest pre₁).length < 2 ^ 31)
    (hk : (hash k₁).toNat % (latest pre₁).length = (hash k₂).toNat % (latest pre₁).length) : pid₁ = pid₂ := by
  have g₁ := (allRouted h _ _ _ h₁ hlt).2
  have g₂ := (allRouted h _ _ _ h₂ (by omega)).2
  rw [← hn] at g₂
  exact Int32.toInt_inj.1 (by rw [g₁, g₂, hk])

/-- C51: and that partition is one of the topic's, whose partitions are numbered from 0. -/
theorem C51_listed (hash : Bytes → UInt32) (as : List RouteAct) (q : Producer) (h : Producer.run hash as {} = .ok q)
    (pre post : List Routed) (k : Bytes) (pid : Int32) (n : Option Int32) (r : Option Err)
    (he : q.log = pre ++ .added (some k) (some (pid, n)) r :: post) (hlt : (latest pre).length < 2 ^ 31)
    (hids : ∀ i < (latest pre).length, ∃ x ∈ latest pre, x.partitionID.toInt = i) :
    ∃ x ∈ latest pre, x.partitionID = pid := by
  obtain ⟨g1, g2⟩ := allRouted h _ _ _ he hlt
  obtain ⟨x, hx, hxi⟩ := hids _ (Nat.mod_lt (hash k).toNat g1)
  exact ⟨x, hx, Int32.toInt_inj.1 (by rw [hxi, g2])⟩

/-! ## C52 -/

/-- C52: the connection of a new partition producer for keyed messages is one opened to the node listed as leader of
its partition. -/
theorem C52_leader (hash : Bytes → UInt32) (as : List RouteAct) (q : Producer) (h : Producer.run hash as {} = .ok q)
    (pre post : List Routed) (pid node : Int32) (he : q.log = pre ++ .opened pid node :: post) :
    (∃ x, (latest pre).find? (fun x => x.partitionID = pid) = some x ∧ x.errorCode = 0 ∧ x.leader = node) ∧ .connected node ∈ pre :=
  allRouted h _ _ _ he

/-! ## Cases -/

/-- a hash -/
def firstByte (k : Bytes) : UInt32 := k.head?.elim 0 UInt8.toUInt32

/-- an answer listing a topic with these partitions and leaders -/
def metaOf (ps : List PartitionMetadataInfo) : MetadataResponse := ⟨0, 0, [demoInfo 1 97], [], 1, [⟨0, [116], false, ps⟩]⟩

/-- a refresh -/
def learn (ps : List PartitionMetadataInfo) : RouteAct := .update (.ok (metaOf ps)) 0 (.ok 1) none

/-- the log of a run -/
def routes (as : List RouteAct) : Option (List Routed) :=
  match Producer.run firstByte as {} with
  | .ok q => some q.log
  | _ => none

/-- two partitions -/
def two : List PartitionMetadataInfo := [demoPart 0 1, demoPart 1 2]

example : routes [learn two, .add (some [3]) none, .add none none, .add (some [5]) none] =
    some [.metadata two, .connected 2, .opened 1 2, .added (some [3]) (some (1, some 2)) none, .added none (some (0, some 1)) none,
      .added (some [5]) (some (1, some 2)) none] := by decide +kernel

/-- C106 does not hold: the leader of partition 1 moves from node 2 to node 1, which the producer learns; keyed
messages go on to node 2. -/
theorem C106_violated : routes [learn two, .add (some [3]) none, learn [demoPart 0 1, demoPart 1 1], .add (some [3]) none] =
    some [.metadata two, .connected 2, .opened 1 2, .added (some [3]) (some (1, some 2)) none, .metadata [demoPart 0 1, demoPart 1 1],
      .added (some [3]) (some (1, some 2)) none] := by decide +kernel

/-- C48 does not hold for the producer of a topic: after `Close`, `AddMessage` with a key returns no error, but no
partition producer accepts the message. -/
theorem C48_violated_producer_closed : routes [learn two, .add (some [3]) none, .close, .add (some [3]) none] =
    some [.metadata two, .connected 2, .opened 1 2, .added (some [3]) (some (1, some 2)) none, .closed, .added (some [3]) none none] := by
  decide +kernel

/-- C49 does not hold for the producer of a topic: the refreshing timer goes on after `Close`, and messages without a
key are accepted again. -/
theorem C49_violated_producer_revived : routes [learn two, .close, learn two, .add none none] =
    some [.metadata two, .closed, .metadata two, .added none (some (0, some 1)) none] := by decide +kernel

/-- C49 does not hold for the producer of a topic: a key whose partition was not used before `Close` is accepted. -/
theorem C49_violated_producer_other_key : routes [learn two, .close, .add (some [3]) none] =
    some [.metadata two, .closed, .connected 2, .opened 1 2, .added (some [3]) (some (1, some 2)) none] := by decide +kernel

/-! ## C107: a partition producer has a leader -/

/-- C107: a producer is made exactly if a leader other than -1 was found and connected to, or -1 was found.
Missing for the full statement: the case of -1 (`C107_violated`). -/
theorem C107_connected_partial (found : Except Err Int32) (connected : Option Err) (node : Option Int32)
    (h : createLeader found connected = .ok node) (hf : found ≠ .ok (-1)) :
    ∃ id, found = .ok id ∧ connected = none ∧ node = some id := by
  cases found with
  | error e => simp [createLeader] at h
  | ok id =>
    have : id ≠ -1 := fun hh => hf (by rw [hh])
    cases connected with
    | some e => simp [createLeader, this] at h
    | none =>
      simp only [createLeader, this, if_false, Except.ok.injEq] at h
      exact ⟨id, rfl, rfl, h.symm⟩

/-- while partition 0 has no leader, the broker answers with error 5 and leader -1 -/
def electingNet : Net Nat :=
  demoNet (fun _ => false) (fun _ _ => (metaOf [⟨5, 0, -1, 0, [], [], []⟩], some (.wrapped (.kafka 5)))) (fun _ => [])

/-- C107 does not hold: while the partition has no leader, a producer is made all the same, without a broker; its
first flush dereferences nil. -/
theorem C107_violated : (Brokers.findLeader electingNet [116] 0 (demoBrokers goodNet)).1 = .ok (-1) ∧
    createLeader (.ok (-1)) none = .ok none := ⟨by decide +kernel, rfl⟩

/-! ## C108: one partition without leader -/

/-- C108: a refresh whose answer reports no error succeeds if the leader of the picked partition is found.
Missing for the full statement: answers in which another partition has an error (`C108_violated`). -/
theorem C108_available_partial (r : MetadataResponse) (t : TopicMetadata) (ts : List TopicMetadata) (pick : Nat) (id : Int32) (p : Producer)
    (he : r.error = none) (ht : r.topics = t :: ts) (hx : ∃ x ∈ t.partitions, x.errorCode = 0) :
    ∃ q, p.update (.ok r) pick (.ok id) none = .ok (none, q) ∧ ∃ i l, q.current = some i ∧ q.lines[i]? = some l ∧
      l.closed = false ∧ ∃ x ∈ t.partitions, x.errorCode = 0 ∧ x.partitionID = l.partition := by
  obtain ⟨x, hx, hx0⟩ := hx
  have hlen : 0 < ((t.partitions.filter fun x => x.errorCode = 0).map PartitionMetadataInfo.partitionID).length := by
    rw [List.length_map]
    exact List.length_pos_of_mem (List.mem_filter.2 ⟨hx, by simp [hx0]⟩)
  have hlt := Nat.mod_lt pick hlen
  have hget := List.getElem?_eq_getElem hlt
  have hmem := List.getElem_mem hlt
  obtain ⟨y, hy, hyp⟩ := List.mem_map.1 hmem
  rw [List.mem_filter] at hy
  have hpick : pickPartition pick t.partitions = .ok y.partitionID := by
    simp only [pickPartition]
    rw [hget, hyp]
  have hl : ∃ leader, createLeader (.ok id) none = .ok leader := by
    simp only [createLeader]
    split <;> exact ⟨_, rfl⟩
  obtain ⟨leader, hl⟩ := hl
  simp only [Producer.update, he, ht, hpick, hl, replaceCurrent]
  refine ⟨_, rfl, p.lines.length, ⟨y.partitionID, leader, false⟩, rfl, ?_, rfl, y, hy.1, by simpa using hy.2, rfl⟩
  cases p.current with
  | none => simp
  | some j => simp [closeLine]

/-- C108 does not hold: while partition 1 has no leader, a refresh fails although partition 0 is available, so no
producer can be made. -/
theorem C108_violated : (match Producer.update (.ok (metaOf [demoPart 0 1, ⟨5, 1, -1, 0, [], [], []⟩])) 0 (.ok 1) none {} with
    | .ok r => r.1
    | _ => none) = some (.wrapped (.wrapped (.kafka 5))) := by decide +kernel

end Healer
