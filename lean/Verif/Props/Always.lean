import Verif.Props.Group
import Verif.Props.Frame
import Verif.Props.Error2
import Verif.Props.Broker2
import Verif.Props.Brokers2
import Verif.Props.Client
import Verif.Props.Consumer2
import Verif.Props.GroupConsumer
import Verif.Props.Metadata
import Verif.Props.MultiConsumer
import Verif.Props.Builders
import Verif.Props.Producer

/-!
# Faults shown for all inputs

For properties which do not hold, other files show a witness; here the fault is shown for every input, state or execution
in which the situation arises.  The witnesses (`Cxx_violated…` in the files imported) are concrete cases of these theorems.
-/

namespace Healer

/-! ## C24: user data of an assignment -/

theorem int32_zero (n : Nat) (h : n < 2 ^ 32) (hz : ∀ b ∈ Kafka.int32 n, b = 0) : n = 0 := by
  have hl : Kafka.int32 n = List.replicate 4 0 := by
    rw [List.eq_replicate_iff]
    exact ⟨int32_length _, hz⟩
  have h0 : Kafka.int32 (0 : Nat) = List.replicate 4 0 := by decide
  have h1 := rdU32_int32 n h
  have h2 := rdU32_int32 0 (by decide)
  rw [hl, ← h0, h2] at h1
  simp only [Out.ok.injEq, Prod.mk.injEq, and_true] at h1
  have := congrArg UInt32.toNat h1
  rw [toNat_u32 _ h] at this
  exact this.symm

/-- What is written for an assignment: its user data without a length, and four bytes of zeros. -/
theorem memberAssignment_encode_always (m : MemberAssignment) :
    m.encode = .ok (Kafka.int16 m.version.toInt ++ (Kafka.int32 m.partitionAssignments.length ++
      (m.partitionAssignments.flatMap PartitionAssignment.wire ++ (m.userData.getD [] ++ List.replicate 4 0)))) := by
  have hw : Writes (Enc.all [
    .put (be16 m.version.toUInt16),
    .put (be32 (UInt32.ofNat m.partitionAssignments.length)),
    .each PartitionAssignment.enc m.partitionAssignments,
    .cpy (m.userData.getD [])])
      (Kafka.int16 m.version.toInt ++ (Kafka.int32 m.partitionAssignments.length ++
        (m.partitionAssignments.flatMap PartitionAssignment.wire ++ (m.userData.getD [] ++ [])))) := by
    refine Writes.all_cons ((Writes.put _).cast (be16_eq _)) (Writes.all_cons
      ((Writes.put _).cast (be32_ofNat _)) (Writes.all_cons (Writes.each _ ?_)
        (Writes.all_cons (Writes.cpy _) Writes.all_nil)))
    intro x _; exact partitionAssignment_writes x
  unfold MemberAssignment.encode
  have hl : m.length = (Kafka.int16 m.version.toInt ++ (Kafka.int32 m.partitionAssignments.length ++
        (m.partitionAssignments.flatMap PartitionAssignment.wire ++ (m.userData.getD [] ++ [])))).length + 4 := by
    unfold MemberAssignment.length
    rw [foldl_length (enc := PartitionAssignment.wire)]
    · simp; omega
    · intro l x _; rw [partitionAssignment_wire_length]; omega
  rw [encodeFull_of_writes hw (by omega), hl, Nat.add_sub_cancel_left]
  simp

/-- C24 fails for all user data: an assignment with any user data is encoded into other bytes than the protocol prescribes. -/
theorem C24_violated_all_user_data (m : MemberAssignment) (u : Bytes) (hu : m.userData = some u) (hn : u ≠ []) (hl : u.length < 2 ^ 32) :
    ∃ b, m.encode = .ok b ∧ b ≠ Kafka.assignment m.version.toInt
      (m.partitionAssignments.map fun p => (p.topic, p.partitions.map Int32.toInt)) u := by
  refine ⟨_, memberAssignment_encode_always m, ?_⟩
  rw [hu, Option.getD_some, wire_flatMap]
  intro h
  simp only [Kafka.assignment, Kafka.array, Kafka.bytes, List.length_map, List.append_assoc, List.append_cancel_left_eq] at h
  have hc := congrArg (List.countP (fun b => decide (b ≠ 0))) h
  rw [List.countP_append, List.countP_append] at hc
  have h0 : List.countP (fun b => decide (b ≠ (0 : UInt8))) (List.replicate 4 0) = 0 := by decide
  rw [h0] at hc
  have hz : List.countP (fun b => decide (b ≠ (0 : UInt8))) (Kafka.int32 u.length) = 0 := by omega
  rw [List.countP_eq_zero] at hz
  have := int32_zero u.length hl (fun b hb => by simpa using hz b hb)
  exact hn (List.length_eq_zero_iff.1 this)

example : ∃ b, MemberAssignment.encode ⟨0, [⟨[116], [0]⟩], some [7]⟩ = .ok b ∧ b.drop 17 = [7, 0, 0, 0, 0] := ⟨_, rfl, by decide⟩

/-! ## C28: short frames -/

/-- C28 fails for all short frames: a frame of fewer than four bytes crashes the reader, however it arrives. -/
theorem C28_violated_all_short (body : Bytes) (hl : body.length < 4) (chunks : List Bytes) (tail : List Ev) (extra : Bytes)
    (h : chunks.flatten = Kafka.frame body ++ extra) : (readFrame (chunks.map .data ++ tail)).1 = .panic := by
  unfold Kafka.frame at h
  rw [List.append_assoc] at h
  obtain ⟨l1, h1, r1⟩ := connRead_data _ _ tail chunks h
  rw [int32_length] at r1
  obtain ⟨l2, h2, r2⟩ := connRead_data _ _ tail l1 h1
  unfold readFrame
  rw [r1]
  simp only [rdU32_int32 _ (show body.length < 2 ^ 32 by omega)]
  rw [toNat_u32 _ (by omega), r2]
  simp only [logFrame, if_pos hl]

example : (readFrame [.data [0, 0], .data [0, 2, 7], .data [7, 9], .fail .timeout]).1 = .panic := by decide +kernel

/-! ## C42, C96, C97: positions -/

/-- C42 fails for every failed look-up: in every execution, the fetch after a failed look-up starts at -1. -/
theorem C42_violated_always (env : ConsumerEnv) (as : List ConsumerAct) (s s' : SC) (hlog : s.log = []) (hl : s.loop = .top)
    (h : s.run env as = some s') (pre mid post : List Seen) (b : Bool) (e : Err) (o : Int64) (n : Int32)
    (hmid : ∀ e ∈ mid, Unmoved e) (heq : s'.log = pre ++ .lookup b (.error e) :: (mid ++ .fetch o n :: post)) : o = -1 := by
  have := C37_next_fetch env as s s' hlog hl h (pre ++ .lookup b (.error e) :: mid) (.fetch o n) post (by rw [heq]; simp)
  rw [FetchOk, show pre ++ Seen.lookup b (.error e) :: mid = (pre ++ [.lookup b (.error e)]) ++ mid by simp,
    position_unmoved _ _ _ hmid, position_snoc] at this
  exact this

/-- C96 fails for every committed position: a consumer which starts from one goes to the end whenever its position turns out
to be out of range, also if it is to start from the beginning. -/
theorem C96_violated_every_lookup (env : ConsumerEnv) (mode : CommitMode) (hmode : mode ≠ .none) (offset committed : Int64)
    (hside : offset = -1 ∨ offset = -2) (hc : 0 ≤ committed) (answers : List (Except Err Int64)) (n : Int32) (as : List ConsumerAct) (s' : SC)
    (h : (consumeStart mode offset committed answers n).run env as = some s') :
    ∀ b x, .lookup b x ∈ s'.log → b = false := by
  have hstart : (consumeStart mode offset committed answers n).fromBeginning = false ∧
      (consumeStart mode offset committed answers n).log = [] := by
    have hno : ¬ (committed = -1 ∨ committed = -2) := by
      rintro (rfl | rfl) <;> exact absurd hc (by decide)
    simp only [consumeStart, if_pos (show mode ≠ .none ∧ (offset = -1 ∨ offset = -2) ∧ committed ≥ 0 from ⟨hmode, hside, hc⟩), if_neg hno, and_self]
  suffices hs : ∀ (as : List ConsumerAct) (s : SC), s.fromBeginning = false →
      (∀ b x, .lookup b x ∈ s.log → b = false) → s.run env as = some s' →
      ∀ b x, .lookup b x ∈ s'.log → b = false from
    hs as _ hstart.1 (by rw [hstart.2]; simp) h
  intro as
  induction as with
  | nil => intro s h1 h2 h3; simp only [SC.run, Option.some.injEq] at h3; exact h3 ▸ h2
  | cons a as ih =>
    intro s h1 h2 h3
    simp only [SC.run] at h3
    cases hst : s.step env a with
    | none => rw [hst] at h3; cases h3
    | some s1 =>
      rw [hst] at h3
      obtain ⟨f1, f2⟩ := step_from env a s s1 hst
      refine ih s1 (f1.trans h1) (fun b x hm => ?_) h3
      rcases f2 b x hm with hm | hm
      · exact h2 b x hm
      · exact hm.trans h1

/-- C97 fails for every consumer committing for itself: in every state, when its position is out of range and the look-up
fails, the next commit carries -1 (unless -1 was committed before). -/
theorem C97_violated_always (env : ConsumerEnv) (hmode : env.mode = .own) (s : SC) (x : FullMessage)
    (ms : List FullMessage) (e e' : Err) (hl : s.loop = .inner (x :: ms)) (hx : x.error = some e) (he : e.is (.kafka 1) = true)
    (hc : s.commits = []) (hd : s.offsetCommited ≠ -1) (ok : Bool) :
    ∃ s', s.run env (.next (.error e') :: ownCommit ok) = some s' ∧
      s'.log = s.log ++ [.lookup s.fromBeginning (.error e'), .commit [] (-1) (-1) ok] := by
  obtain ⟨stop, cancelled, offset, oc, fb, fm, loop, commits, queue, mem, gen, log⟩ := s
  simp only at hl hc hd
  subst hl hc
  have hd' : ¬ ((-1 : Int64) = oc) := fun h => hd h.symm
  cases ok <;>
    simp [SC.run, SC.step, nextMessage, hx, onError, he, ownCommit, commitNext, hd', hmode, setCommit, offsetOrMinusOne]

/-! ## C104: the last commit -/

/-- C104 fails for every member that has left: whatever the position of the consumer, the last commit sends nothing. -/
theorem C104_violated_always (s : SC) (hc : s.commits = []) (g : Int32) (ok : Bool) (as : List ConsumerAct)
    (has : ∀ a ∈ as, a = .commit ∨ a = .commitStep 0 ok) (s' : SC)
    (h : SC.run { mode := .member, autoOnly := true } (.membership [] g :: as) s = some s') :
    s'.log = s.log ++ [.member [] g] := by
  have hs : ∀ (as : List ConsumerAct) (s : SC), (∀ a ∈ as, a = .commit ∨ a = .commitStep 0 ok) → s.memberID = [] →
      (∀ c ∈ s.commits, ∀ o, c ≠ .checked o) →
      SC.run { mode := .member, autoOnly := true } as s = some s' → s'.log = s.log := by
    intro as
    induction as with
    | nil => intro s _ _ _ h; simp only [SC.run, Option.some.injEq] at h; rw [h]
    | cons a as ih =>
      intro s ha hm hk h
      simp only [SC.run] at h
      cases hst : s.step { mode := .member, autoOnly := true } a with
      | none => rw [hst] at h; cases h
      | some s1 =>
        rw [hst] at h
        suffices hq : s1.log = s.log ∧ s1.memberID = [] ∧ ∀ c ∈ s1.commits, ∀ o, c ≠ .checked o by
          rw [ih s1 (fun x hx => ha x (List.mem_cons_of_mem _ hx)) hq.2.1 hq.2.2 h, hq.1]
        rcases ha a (List.mem_cons_self ..) with rfl | rfl
        · simp only [SC.step] at hst
          split at hst
          · cases hst
          · cases hst
            refine ⟨rfl, hm, fun c hc o => ?_⟩
            rcases List.mem_append.1 hc with hc | hc
            · exact hk c hc o
            · rw [List.mem_singleton.1 hc]; intro h; cases h
        · simp only [SC.step] at hst
          cases hg : s.commits[0]? with
          | none => rw [hg] at hst; cases hst
          | some c =>
            rw [hg] at hst
            simp only [Option.some.injEq] at hst
            subst hst
            have hmemc : c ∈ s.commits := List.mem_of_getElem? hg
            have hset : ∀ c' : Option CommitAt, (∀ o, c' ≠ some (.checked o)) →
                ∀ x ∈ setCommit s.commits 0 c', ∀ o, x ≠ .checked o := by
              intro c' hc' x hx o
              cases c' with
              | none => exact hk x (List.mem_of_mem_eraseIdx hx) o
              | some d =>
                rcases List.mem_or_eq_of_mem_set hx with hx | rfl
                · exact hk x hx o
                · intro hd; exact hc' o (by rw [hd])
            cases c with
            | start =>
              by_cases ho : s.offset = s.offsetCommited
              · simp only [commitNext, if_pos ho]; exact ⟨trivial, hm, hset _ (fun o h => by cases h)⟩
              · simp only [commitNext, if_neg ho]; exact ⟨trivial, hm, hset _ (fun o h => by cases h)⟩
            | differs => simp only [commitNext]; exact ⟨trivial, hm, hset _ (fun o h => by cases h)⟩
            | read o =>
              simp only [commitNext, if_pos (Or.inl hm : s.memberID = [] ∨ o < 0)]
              exact ⟨trivial, hm, hset _ (fun o h => by cases h)⟩
            | checked o => exact absurd rfl (hk _ hmemc o)
            | acknowledged o => simp only [commitNext]; exact ⟨trivial, hm, hset _ (fun o h => by cases h)⟩
  simp only [SC.run, SC.step] at h
  rw [hs as _ has rfl (by simp [hc]) h]

/-! ## C55: list-groups -/

/-- C55 fails for every error of list-groups: whatever code the answer carries, it is taken for a success. -/
theorem C55_violated_every_code (r : ListGroupsResponse) : Carries (.listGroups r) r.errorCode.toInt16 ∧ (Response.listGroups r).error = .ok none :=
  ⟨.listGroups r, rfl⟩

/-! ## C91: mechanisms other than PLAIN -/

/-- C91 fails for every other mechanism: if the broker answers which versions it has and accepts the handshake, opening the broker panics. -/
theorem C91_violated_all_mechanisms (s : SaslConfig) (dials : List (Except Err Script)) (hs : s.mechanism ≠ [])
    (hp : toLower s.mechanism ≠ [112, 108, 97, 105, 110]) (vs : List APIVersion) (b b' : Broker) (r : Response)
    (hv : (createConn >>= fun _ => B.wrap requestAPIVersions) ⟨s, none, [], 0, false, dials, 0, []⟩ = (.ok vs, b))
    (hh : requestAndGetInner (saslHandshakeReq s.mechanism) { b with apiVersions := vs } = (.ok r, b')) :
    (newBroker s dials).1 = .panic := by
  have hsasl : b.sasl = s := (apiVersions_open hv).choose_spec.choose_spec.choose_spec.2.2.2.2.2.2
  have ho := saslConn_open hh
  have hmux : b'.mux = false := by
    obtain ⟨b2, -, rfl⟩ := locked_ok hh
    rfl
  obtain ⟨u, b1, h1, h2⟩ := B.bind_ok hv
  have hopt : (requestAndGetOpt (saslAuthenticateReq s.user s.password s.mechanism) b').1 = .panic := by
    rw [saslAuthenticateReq, if_neg hp]
    simp only [requestAndGetOpt, Healer.locked, hmux]
    cases hc : b'.conn with
    | none => rw [hc] at ho; cases ho
    | some c => rfl
  have hsend : (sendSaslAuthenticate s { b with apiVersions := vs }).1 = .panic := by
    unfold sendSaslAuthenticate
    change (B.bind _ _ _).1 = _
    unfold B.bind
    rw [hh]
    change (B.bind _ _ _).1 = _
    unfold B.bind
    rcases hq : requestAndGetOpt (saslAuthenticateReq s.user s.password s.mechanism) b' with ⟨x, b3⟩
    rw [hq] at hopt
    simp only at hopt
    subst hopt
    rfl
  unfold newBroker createConnAndAuth
  change (B.bind _ _ _).1 = _
  unfold B.bind
  rw [h1]
  change (B.bind _ _ _).1 = _
  unfold B.bind
  rw [h2]
  simp only
  rw [hsasl, if_pos hs]
  rw [hsasl] at hsend
  exact hsend

/-! ## C92: nodes already connected to -/

/-- C92 fails for every node connected to: whatever becomes known of its address, the object made at first is handed out. -/
theorem C92_violated_always {W : Type} (net : Net W) (n : Int32) (b : Brokers W) (h : Nat × Int32) (hc : b.cache.get n = some h) (ops : List BOp) :
    Brokers.getBroker net n (runOps net ops b) = (.ok h, runOps net ops b) := by
  have := (runOps_grows net ops b).cache n h hc
  unfold Brokers.getBroker
  rw [this]

/-! ## C114: deleting topics -/

/-- C114 fails for every failed request: `DeleteTopics` panics whenever the controller can be reached and the request fails. -/
theorem C114_violated_always {W : Type} (net : Net W) (ask : Nat → W → Except Err TopicErrorsResponse × W) (b : Brokers W) (h : Nat × Int32)
    (hg : (Client.getController net b).1 = .ok h) (e : Err) (ha : (ask h.1 (Client.getController net b).2.world).1 = .error e) :
    (Client.deleteTopics net ask b).1 = .panic := by
  unfold Client.deleteTopics
  rcases hg' : Client.getController net b with ⟨e | h', b1⟩
  · rw [hg'] at hg; cases hg
  · rw [hg'] at hg ha
    cases hg
    simp only at ha ⊢
    rw [ha]
    rfl

/-! ## C124: partitions given -/

/-- C124 fails for every topic given without partitions: all its partitions are consumed. -/
theorem C124_violated_every_empty (assign : AMap Bytes (List Int64)) (t : TopicMetadata) (h : assign.get t.name = some []) :
    partitionConsumers assign [t] = t.partitions.map fun p => (t.name, p.partitionID) := by
  simp [partitionConsumers, partitionsOf, h]

/-- C124 fails for every number beyond 32 bits: the consumer made is for the number modulo 2^32, another partition. -/
theorem C124_violated_every_wrap (assign : AMap Bytes (List Int64)) (t : TopicMetadata) (p : Int64) (h : assign.get t.name = some [p])
    (hw : p.toInt < -2 ^ 31 ∨ 2 ^ 31 ≤ p.toInt) :
    ∃ q : Int32, partitionConsumers assign [t] = [(t.name, q)] ∧ q.toInt ≠ p.toInt := by
  refine ⟨p.toInt32, by simp [partitionConsumers, partitionsOf, h], ?_⟩
  have h1 := p.toInt32.le_toInt
  have h2 := p.toInt32.toInt_lt
  omega

/-- C124 fails for every number given more than once: as many consumers are made for it. -/
theorem C124_violated_every_twice (assign : AMap Bytes (List Int64)) (t : TopicMetadata) (ps : List Int64) (h : assign.get t.name = some ps)
    (hn : ps ≠ []) : partitionConsumers assign [t] = ps.map fun p => (t.name, p.toInt32) := by
  cases ps with
  | nil => exact absurd rfl hn
  | cons p ps => simp [partitionConsumers, partitionsOf, h]

/-! ## C26: topics without subscribers -/

theorem topicAssignments_panic (members : List Member) (sub : Member → List Bytes) (hd : Decodes members sub) :
    ∀ (ts : List TopicPartitions) (acc : AMap Bytes (AMap Bytes (List Int32))), (∃ t ∈ ts, subscribers members sub t.topicName = []) →
      topicAssignments members ts acc = .panic := by
  intro ts
  induction ts with
  | nil => rintro acc ⟨t, h, -⟩; cases h
  | cons t ts ih =>
    rintro acc ⟨u, hu, hs⟩
    simp only [topicAssignments]
    rw [membersWithTopic_eq members sub t.topicName hd]
    simp only [Out.bind_ok]
    by_cases ht : subscribers members sub t.topicName = []
    · rw [ht]
      rfl
    · have hpos : 0 < (sortMembers (subscribers members sub t.topicName)).length := List.length_pos_iff.2 (sortMembers_ne_nil ht)
      obtain ⟨a, h1, -⟩ := assignLoop_ok (sortPartitions t.partitionIDs) _ hpos
        (sortMembers (subscribers members sub t.topicName)) 0 (by simp) []
      have h3 : assignPartitions (sortMembers (subscribers members sub t.topicName)) (sortPartitions t.partitionIDs) = .ok a := by
        unfold assignPartitions
        rw [if_neg (by omega)]
        simp only
        rw [show rangeStart (sortPartitions t.partitionIDs).length
          (sortMembers (subscribers members sub t.topicName)).length 0 = 0 from by simp [rangeStart]] at h1
        exact h1
      rw [h3]
      simp only [Out.bind_ok]
      refine ih _ ⟨u, ?_, hs⟩
      rcases List.mem_cons.1 hu with rfl | hu
      · exact absurd hs ht
      · exact hu

/-- C26 fails for every topic nobody subscribes to: the leader panics, whatever else is to be assigned. -/
theorem C26_violated_every_topic (ord : MapOrders) (members : List Member) (sub : Member → List Bytes)
    (hd : ∀ m ∈ members, ∃ v u, newProtocolMetadata m.memberMetadata = .ok ⟨v, sub m, u⟩)
    (ts : List TopicPartitions) (t : TopicPartitions) (ht : t ∈ ts) (hs : ∀ m ∈ members, t.topicName ∉ sub m) :
    assign ord members ts = .panic := by
  have hs : subscribers members sub t.topicName = [] := by
    unfold subscribers
    rw [List.map_eq_nil_iff, List.filter_eq_nil_iff]
    intro m hm
    simpa using hs m hm
  unfold assign assignStructs
  rw [topicAssignments_panic members sub hd ts [] ⟨t, ht, hs⟩]
  rfl

/-! ## C46, C48, C49, C50: the producer of a partition -/

/-- C46 fails whenever messages wait when `Close` is called: the next `Flush`, also by the timer, sends all of them once more. -/
theorem C46_violated_always (max : Int) (p : SP) (hc : p.closed = false) (hr : p.records ≠ []) (a a' : Option Err) :
    (SP.run max [.close a, .flush a'] p).log =
      p.log ++ [.sent (p.records.map (Buffered.kv p.mem)) a, .closed, .sent (p.records.map (Buffered.kv p.mem)) a', .flushed a'] := by
  have hl : p.records.length > 0 := List.length_pos_iff.2 hr
  simp [SP.run, SP.step, SP.close, SP.flushAll, hc, hl]

example : (SP.run 5 [.add none 4 none, .add none 5 none] { mem := memo }).closed = false ∧
    (SP.run 5 [.add none 4 none, .add none 5 none] { mem := memo }).records.map (Buffered.kv memo) = [⟨none, [4]⟩, ⟨none, [5]⟩] := by decide +kernel

/-- C48 fails for every failed request of `AddMessage`: the call returns no error, and the messages of the request are sent by no
later call. -/
theorem C48_violated_every_add (max : Int) (p : SP) (hc : p.closed = false) (key : Option Nat) (value : Nat) (e : Err)
    (hl : max ≤ (p.records.length : Int) + 1) :
    (p.step max (.add key value (some e))).records = [] ∧
    (p.step max (.add key value (some e))).log =
      p.log ++ [.sent (p.records.map (Buffered.kv p.mem) ++ [⟨key.map p.mem, p.mem value⟩]) (some e), .added ⟨key.map p.mem, p.mem value⟩ none] := by
  have hl' : ((p.records ++ [Buffered.mk key (p.mem value)]).length : Int) ≥ max := by simp; omega
  simp only [SP.step, SP.addMessage, hc, Bool.false_eq_true, if_false, if_pos hl']
  simp [Buffered.kv]

/-- C48 fails for every failed request of `Close`: it tells no error. -/
theorem C48_violated_every_close (max : Int) (p : SP) (hc : p.closed = false) (hr : p.records ≠ []) (e : Err) :
    (p.step max (.close (some e))).log = p.log ++ [.sent (p.records.map (Buffered.kv p.mem)) (some e), .closed] := by
  have hl : p.records.length > 0 := List.length_pos_iff.2 hr
  simp [SP.step, SP.close, hc, hl]

/-- C49 fails whenever messages waited when `Close` was called: `Flush` on the closed producer sends. -/
theorem C49_violated_always (max : Int) (p : SP) (hc : p.closed = false) (hr : p.records ≠ []) (a a' : Option Err) :
    (p.step max (.close a)).closed = true ∧
    ((p.step max (.close a)).step max (.flush a')).log =
      (p.step max (.close a)).log ++ [.sent (p.records.map (Buffered.kv p.mem)) a', .flushed a'] := by
  have hl : p.records.length > 0 := List.length_pos_iff.2 hr
  simp [SP.step, SP.close, SP.flushAll, hc, hl]

/-- C50 fails for every key: whatever the caller writes to the slice of the key while the message waits is sent as its key. -/
theorem C50_violated_every_key (max : Int) (p : SP) (hc : p.closed = false) (hr : p.records = []) (hm : 1 < max) (key value : Nat) (other : Bytes)
    (a a' : Option Err) :
    (SP.run max [.add (some key) value a, .write key other, .flush a'] p).log =
      p.log ++ [.added ⟨some (p.mem key), p.mem value⟩ none, .sent [⟨some other, p.mem value⟩] a', .flushed a'] := by
  have hl : ¬ max ≤ 1 := by omega
  simp [SP.run, SP.step, SP.addMessage, SP.flushAll, hc, hr, hl, Buffered.kv]

/-! ## C75, C112: requests for one partition twice -/

/-- C75 fails for every fetch request: a partition added twice is listed twice. -/
theorem C75_violated_every_fetch (r : FetchRequest) (hr : r.topics = []) (a b : FetchAdd) (ht : a.topic = b.topic) (adds : List FetchAdd)
    (bs : List PartitionBlock)
    (h : (a.topic, bs) ∈ ((a :: b :: adds).foldl (fun r a => r.addPartition a.topic a.pid a.offset a.maxBytes a.epoch) r).topics) :
    ∃ rest, bs = a.block :: b.block :: rest := by
  have := (C75_fetch_partial r hr (a :: b :: adds)).2.2.1 _ _ h
  simp only [List.filter_cons, ht, decide_true, if_true, List.map_cons] at this
  exact ⟨_, this⟩

/-- C112 fails for every partition: a reassignment to which targets are added for it twice asks for both. -/
theorem C112_violated_always (timeout : Int32) (topic : Bytes) (pid : Int32) (rs rs' : Option (List Int32)) :
    (([(topic, ⟨pid, rs⟩), (topic, ⟨pid, rs'⟩)] : List (Bytes × ReassignPartition)).foldl
      (fun r a => r.addAssignment a.1 a.2.partitionID a.2.replicas) ({ timeoutMs := timeout } : AlterReassignmentsRequest)).asked topic =
      [⟨pid, rs⟩, ⟨pid, rs'⟩] := by
  rw [C112_all_added_partial]
  simp

/-! ## C68: the cluster id -/

/-- C68 fails for every cluster id: one of up to 255 bytes which does not begin with a zero byte (they are texts) is never reported. -/
theorem C68_violated_every_cluster_id (v : UInt16) (hv : v ∈ clientVersions API_MetadataRequest) (h2 : 2 ≤ v.toNat) (corr : UInt32)
    (throttle controller : Int32) (brokers : List SentBroker) (x : UInt8) (xs : Bytes) (hx : x ≠ 0) (hn : (x :: xs).length < 256)
    (topics : List TopicMetadata) (hb : ∀ b ∈ brokers, b.Fits) (ht : ∀ t ∈ topics, Kafka.IsString t.name)
    (hl : (Kafka.response .metadata v.toNat corr.toNat [] (Kafka.metadataResponse v.toNat throttle.toInt
      (brokers.map SentBroker.wire) (some (x :: xs)) controller.toInt (topics.map TopicMetadata.wire))).length < 2 ^ 31) :
    ∃ r, newMetadataResponse v (Kafka.response .metadata v.toNat corr.toNat [] (Kafka.metadataResponse v.toNat
        throttle.toInt (brokers.map SentBroker.wire) (some (x :: xs)) controller.toInt (topics.map TopicMetadata.wire))) =
        .ok (r, none) ∧ r.clusterID ≠ x :: xs := by
  have hc : Kafka.IsString (x :: xs) := by unfold Kafka.IsString; omega
  obtain ⟨r, h1, -, -, -, -, -, -, h8⟩ := C68_metadata_partial v hv corr throttle controller brokers (x :: xs) topics hb hc ht hl
  refine ⟨r, h1, ?_⟩
  rw [h8, if_pos h2]
  intro h
  have h0 : (Kafka.int16 (x :: xs).length).head? = some 0 := by
    have e : (((x :: xs).length : Int) % 2 ^ 16).toNat / 256 ^ 1 = 0 := by omega
    have e2 : Kafka.int16 (x :: xs).length = UInt8.ofNat ((((x :: xs).length : Int) % 2 ^ 16).toNat / 256 ^ 1) ::
      [UInt8.ofNat ((((x :: xs).length : Int) % 2 ^ 16).toNat / 256 ^ 0)] := rfl
    rw [e2, e]
    rfl
  have := congrArg List.head? h
  rw [List.head?_cons, Kafka.string, List.head?_take, if_neg (by simp), List.head?_append, h0] at this
  simp at this
  exact hx this.symm

end Healer
