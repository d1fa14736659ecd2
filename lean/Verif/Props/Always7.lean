import Verif.Props.Transmit
import Verif.Props.Reply
import Verif.Props.Settings
import Verif.Props.Config
import Verif.Props.Tools3
import Verif.Props.Tools

/-!
# Faults shown for all inputs, continued
-/

namespace Healer

/-! ## C36 -/

/-- C36 fails for every list-groups request without tagged fields sent first to a broker of a flexible version, then to one of
another: whatever the client id, the filters and the correlation ids, the second frame is two bytes longer than what a new
object gives. -/
theorem C36_violated_every_listGroups (states types : Option (List Bytes)) (cid : Option Bytes)
    (v w : UInt16) (hv : v = 3 ∨ v = 4 ∨ v = 5) (hw : w = 0 ∨ w = 1 ∨ w = 2) (c1 c2 : UInt32) :
    ∃ first bs bs', (AnyRequest.listGroups ⟨states, types, none⟩).transmissions (reqHeader 16 0 0 cid) [(v, c1), (w, c2)] = [first, .ok bs'] ∧
      (AnyRequest.listGroups ⟨states, types, none⟩).encode (reqHeader 16 w c2 cid) w = .ok bs ∧ bs'.length = bs.length + 2 := by
  have wf : ∀ f : Bool, Writes (.all [.when (decide (w ≥ 4)) (encodeFilter f states), .when (decide (w ≥ 5)) (encodeFilter f types),
      .when f (TaggedFields.encodeTo none)]) (if f then [0] else []) := by
    intro f
    have h4 : decide (w ≥ 4) = false := by rcases hw with rfl | rfl | rfl <;> rfl
    have h5 : decide (w ≥ 5) = false := by rcases hw with rfl | rfl | rfl <;> rfl
    rw [h4, h5]
    have wt := writes_tags f taggedFields_fits_none
    refine (Writes.all_cons Writes.nop <| Writes.all_cons Writes.nop <| Writes.all_cons wt Writes.all_nil).cast ?_
    cases f <;> rfl
  have h2 : (AnyRequest.transmit (.listGroups ⟨states, types, none⟩) (reqHeader 16 0 0 cid) v c1).2 =
      { reqHeader 16 v c1 cid with hv := some 2 } := by
    rcases hv with rfl | rfl | rfl <;> rfl
  have hb : (AnyRequest.listGroups ⟨states, types, none⟩).encode (reqHeader 16 w c2 cid) w =
      .ok (Kafka.request .listGroups w.toNat c2.toNat cid []) := by
    refine encodePatched_ok .listGroups rfl ?_ (Nat.zero_le _)
    have hf : (reqHeader 16 w c2 cid).isFlexible = .ok false := by rcases hw with rfl | rfl | rfl <;> rfl
    rw [hf]
    exact wf false
  have hs : (AnyRequest.listGroups ⟨states, types, none⟩).encode ({ reqHeader 16 w c2 cid with hv := some 2 }) w =
      .ok (Kafka.frame ((({ reqHeader 16 w c2 cid with hv := some 2 }) : RequestHeader).wire 2 ++ [0])) := by
    generalize hq : ({ reqHeader 16 w c2 cid with hv := some 2 } : RequestHeader) = q
    have hq1 : q.headerVersion = .ok 2 := by rw [← hq]; rfl
    have hq2 : q.isFlexible = .ok true := by rw [← hq]; rfl
    have hq3 : q.taggedFields = none := by rw [← hq]; rfl
    have hq4 : q.apiVersion = w := by rw [← hq]; rfl
    unfold AnyRequest.encode ListGroupsRequest.encode encodePatched
    rw [requestHeader_length_exact q 2 hq1 (by decide) hq3, hq2, hq4]
    simp only [Out.bind_ok, show ∀ f : Bool → Enc, Enc.withO (.ok true) f = f true from fun _ => rfl]
    have hl : 8 ≤ ListGroupsRequest.length ⟨states, types, none⟩ := by
      unfold ListGroupsRequest.length
      have : ∀ (xs : List Bytes) (n : Nat), n ≤ xs.foldl (fun l v => l + 2 + v.length) n := by
        intro xs
        induction xs with
        | nil => intro n; exact Nat.le_refl _
        | cons x xs ih => intro n; exact Nat.le_trans (by show n ≤ n + 2 + x.length; omega) (ih _)
      have h1 := this (states.getD []) 4
      have h2 := this (types.getD []) ((states.getD []).foldl (fun l v => l + 2 + v.length) 4 + 4)
      simp only at h1 h2 ⊢
      omega
    rw [encodeCut_of_writes (Writes.all_cons (Writes.put [0, 0, 0, 0]) (Writes.all_cons (requestHeader_writes q 2 hq1 (by rw [hq3]; exact taggedFields_fits_none))
      (Writes.all_cons (x := [0]) (fun w' h => wf true w' h) Writes.all_nil)))]
    · simp only [Out.bind_ok, List.append_nil]
      rw [patch_ok]
    · simp; omega
  refine ⟨(AnyRequest.transmit (.listGroups ⟨states, types, none⟩) (reqHeader 16 0 0 cid) v c1).1, _,
    Kafka.frame ((({ reqHeader 16 w c2 cid with hv := some 2 }) : RequestHeader).wire 2 ++ [0]), ?_, hb, ?_⟩
  · rw [← hs]
    rw [show AnyRequest.transmissions (.listGroups ⟨states, types, none⟩) (reqHeader 16 0 0 cid) [(v, c1), (w, c2)] =
      [(AnyRequest.transmit (.listGroups ⟨states, types, none⟩) (reqHeader 16 0 0 cid) v c1).1,
       (AnyRequest.transmit (.listGroups ⟨states, types, none⟩) (AnyRequest.transmit (.listGroups ⟨states, types, none⟩) (reqHeader 16 0 0 cid) v c1).2 w c2).1] from rfl, h2]
    rfl
  · have hv1 : Kafka.Api.requestHeaderVersion .listGroups w.toNat = 1 := by rcases hw with rfl | rfl | rfl <;> rfl
    unfold Kafka.request Kafka.frame RequestHeader.wire Kafka.requestHeader
    rw [hv1]
    simp [reqHeader, TaggedFields.wire, Kafka.tagBuffer, uvarint_zero]
    omega

example : (AnyRequest.listGroups ⟨none, none, none⟩).transmissions (reqHeader 16 0 0 (some [99])) [(4, 5), (2, 9)] =
    [.ok [0, 0, 0, 14, 0, 16, 0, 4, 0, 0, 0, 5, 0, 1, 99, 0, 0, 0], .ok [0, 0, 0, 13, 0, 16, 0, 2, 0, 0, 0, 9, 0, 1, 99, 0, 0]] := by decide +kernel

/-! ## C137 -/

theorem aclResults_panic (ts : TaggedFields) (xs : List AclCreationResult) (hx : ∀ x ∈ xs, x.errorMessage = none) (hne : xs ≠ [])
    (w : Wr) (hw : w.data.length + 4 * xs.length = w.cap + 4) :
    Enc.each (AclCreationResult.encodeTo false ts) xs w = .panic := by
  induction xs generalizing w with
  | nil => exact absurd rfl hne
  | cons x xs ih =>
    have hm : encodeFlexNullable false x.errorMessage = .ok [255, 255] := by rw [hx x (by simp)]; rfl
    simp only [List.length_cons] at hw
    unfold Enc.each AclCreationResult.encodeTo
    rw [hm]
    by_cases hn : xs = []
    · subst hn
      simp only [List.length_nil] at hw
      simp only [Enc.seq, Enc.all, Enc.put, be16_length]
      rw [if_neg (by omega)]
    · have : 0 < xs.length := List.length_pos_iff.2 hn
      have hb : Writes (Enc.all [.put (be16 x.errorCode), .cpyO (.ok [255, 255]), .when false ts.encodeTo]) (be16 x.errorCode ++ ([255, 255] ++ ([] ++ []))) :=
        Writes.all_cons (Writes.put _) <| Writes.all_cons (writes_cpyO rfl) <| Writes.all_cons (Writes.when (c := false) (bs := []) (fun h => by cases h)) Writes.all_nil
      unfold Enc.seq
      rw [hb w (by simp; omega)]
      exact ih (fun y hy => hx y (by simp [hy])) hn _ (by simp; omega)

/-- C137 fails for every create-ACLs answer of versions 0 and 1 in which no result carries a message, above all for every answer
that all rules were created: writing it panics. -/
theorem C137_violated_every_silent (r : CreateAclsResponse) (hf : r.header.headerVersion = 0) (hx : ∀ x ∈ r.results, x.errorMessage = none) :
    r.encode = .panic := by
  have hff : r.header.isFlexible = false := by unfold ResponseHeader.isFlexible; rw [hf]; rfl
  have hl : r.length = 8 + 4 * r.results.length := by
    unfold CreateAclsResponse.length ResponseHeader.length
    rw [hff]
    have : ∀ xs : List AclCreationResult, (∀ x ∈ xs, x.errorMessage = none) → (xs.map AclCreationResult.room).sum = 4 * xs.length := by
      intro xs h
      induction xs with
      | nil => rfl
      | cons x xs ih =>
        simp only [List.map_cons, List.sum_cons, List.length_cons, ih fun y hy => h y (by simp [hy])]
        unfold AclCreationResult.room
        rw [h x (by simp)]
        simp only
        omega
    rw [this _ hx]
    simp
  have hh : Writes r.header.encodeTo (be32 r.header.correlationID ++ []) := by
    unfold ResponseHeader.encodeTo
    rw [hf]
    exact Writes.seq (Writes.put _) Writes.nop
  unfold CreateAclsResponse.encode encodeCut
  rw [hff, hl]
  suffices H : Enc.all [.put [0, 0, 0, 0], r.header.encodeTo,
      (if false = true then .cpyO (encodeCompactArrayLength (Int64.ofNat r.results.length)) else .put (be32 (UInt32.ofNat r.results.length))),
      .each (AclCreationResult.encodeTo false r.taggedFields) r.results, .when false (.cpyO r.taggedFields.encode)]
      ⟨8 + 4 * r.results.length, []⟩ = .panic by
    rw [H]; rfl
  simp only [Enc.all, Bool.false_eq_true, if_false]
  unfold Enc.seq
  rw [Writes.put [0, 0, 0, 0] _ (by simp; omega)]
  simp only
  rw [hh _ (by simp)]
  simp only [Enc.put]
  by_cases hn : r.results = []
  · rw [hn]; simp
  · have : 0 < r.results.length := List.length_pos_iff.2 hn
    rw [if_pos (by simp; omega)]
    simp only
    rw [aclResults_panic _ _ hx hn _ (by simp; omega)]

example : (CreateAclsResponse.mk ⟨API_CreateAcls, 1, 0, 7, none⟩ [⟨0, none, none⟩, ⟨0, none, none⟩, ⟨0, none, none⟩] none).encode = .panic :=
  C137_violated_every_silent _ rfl (by decide)

/-! ## C157 -/

theorem findSetting_other (name key : String) (v : Setting) (m : Settings) (h : sameFold name key = false) :
    findSetting key ((name, v) :: m) = findSetting key m := by
  have hne : name ≠ key := by
    rintro rfl
    simp [sameFold] at h
  unfold findSetting
  rw [List.find?_cons_of_neg (by simpa using hne), List.find?_cons_of_neg (by simpa using h)]

/-- The names of the settings of a consumer. -/
def consumerNames : List String := ["net", "bootstrap.servers", "client.id", "group.id", "retry.backoff.ms", "metadata.max.age.ms", "session.timeout.ms",
  "fetch.max.wait.ms", "fetch.max.bytes", "fetch.min.bytes", "from.beginning", "auto.commit", "auto.commit.interval.ms", "offsets.storage",
  "metadata.refresh.interval.ms"]

/-- C157 fails for every name that is no setting, whatever is given under it and beside it: the map is taken as if the name were
not there. -/
theorem C157_violated_every_unknown (shown : Int → Int → String) (kind : ConsumerKind) (dflt : ConsumerConfig) (m : Settings) (name : String) (v : Setting)
    (hn : ∀ key ∈ consumerNames, sameFold name key = false) (h : IntArrays) :
    acceptConsumer kind dflt (.map (ConsumerConfig.decode shown ((name, v) :: m))) h = acceptConsumer kind dflt (.map (ConsumerConfig.decode shown m)) h := by
  have e : ConsumerConfig.decode shown ((name, v) :: m) = ConsumerConfig.decode shown m := by
    funext c
    simp only [consumerNames, List.mem_cons, List.not_mem_nil, or_false, forall_eq_or_imp, forall_eq] at hn
    obtain ⟨h1, h2, h3, h4, h5, h6, h7, h8, h9, h10, h11, h12, h13, h14, h15⟩ := hn
    simp only [ConsumerConfig.decode, netField, textField, intField, boolField, findSetting_other, h1, h2, h3, h4, h5, h6, h7, h8, h9, h10, h11, h12, h13, h14, h15]
  rw [e]

example : ∀ key ∈ consumerNames, sameFold "session.timeout" key = false := by decide +kernel

/-! ## C53 -/

/-- C53 fails for every configuration of a producer that is accepted: with any format from 2 on, any acknowledgements and any
refresh interval instead, it is accepted as well, and kept so. -/
theorem C53_violated_every_producer (given c : ProducerConfig) (h : createProducerConfig (.config given) = .ok c)
    (format : Int64) (hf : 2 ≤ format) (acks : Int16) (age : Int64) :
    createProducerConfig (.config { given with healerMagicByte := format, acks := acks, metadataMaxAgeMS := age }) =
      .ok { given with healerMagicByte := format, acks := acks, metadataMaxAgeMS := age } := by
  obtain ⟨-, hv⟩ := ProducerConfig.checked_ok (show given.checked = .ok c from h)
  have hv' : ({ given with healerMagicByte := format, acks := acks, metadataMaxAgeMS := age } : ProducerConfig).checkValid = none := hv
  simp only [createProducerConfig, ProducerConfig.checked, hv', ProducerConfig.raiseMagic]
  rw [if_neg]
  rw [Int64.lt_iff_toInt_lt]
  rw [Int64.le_iff_toInt_le] at hf
  omega

example : ∃ c, createProducerConfig (.config { defaultProducerConfig with bootstrapServers := "b:9092" }) = .ok c ∧ ¬ DocumentedProducer { c with acks := 7 } :=
  ⟨_, rfl, fun h => absurd h.acks (by decide)⟩

/-! ## C130 -/

/-- C130 fails whenever the broker refuses the requests: whatever the lines and the errors, every line is accepted, no call
returns an error, and each request sent was refused. -/
theorem C130_violated_every_refused (max : Int) (ls : List (Bytes × List (Option Err) × Option Err)) (last : Option Err) (mem : Nat → Bytes)
    (hr : ∀ a ∈ answersOf ls ++ [last], a ≠ none) :
    let log := (SP.run max (pipeLines ls ++ [.close last]) { mem }).log
    acceptedIn log = ls.map (fun l => lineMessage l.1) ∧ (∀ m e, Produced.added m (some e) ∉ log) ∧
    sentIn log = ls.map (fun l => lineMessage l.1) ∧ (∀ ms r, Produced.sent ms r ∈ log → r ≠ none) := by
  intro log
  obtain ⟨h1, h2, h3, -⟩ := C130_partial max ls last mem
  refine ⟨h2, h3, h1, ?_⟩
  have h := PipeInv.lines max ls (done := []) (as := []) (p := { mem }) ⟨rfl, by simp, rfl, rfl, by simp, by simp⟩
  simp only [List.nil_append] at h
  intro ms r hm
  change Produced.sent ms r ∈ (SP.run max (pipeLines ls ++ [.close last]) { mem }).log at hm
  rw [SP.run_append] at hm
  generalize SP.run max (pipeLines ls) { mem } = p at h hm
  simp only [SP.run, SP.step, SP.close, h.opened, Bool.false_eq_true, if_false] at hm
  split at hm <;> rcases List.mem_append.1 hm with hm | hm
  · exact hr r (List.mem_append_left _ (h.results ms r hm))
  · simp at hm
    exact hr r (by simp [hm.2])
  · exact hr r (List.mem_append_left _ (h.results ms r hm))
  · simp at hm

example : (SP.run 2 (pipeLines [([1], [], some .timeout), ([2], [], some .timeout)] ++ [.close (some .timeout)]) {}).log =
    [.added ⟨none, [1]⟩ none, .sent [⟨none, [1]⟩, ⟨none, [2]⟩] (some .timeout), .added ⟨none, [2]⟩ none, .closed] := by decide +kernel

/-! ## C129 -/

theorem addReplicas_zero (pid : Int32) (replicas : List Int32) (ras ras' : List ReplicaAssignment)
    (h : addReplicas pid replicas ras = .ok ras') (hne : ras ≠ []) (hp : ∀ ra ∈ ras, 0 < ra.partition) :
    ras' ≠ [] ∧ ∀ ra ∈ ras', 0 < ra.partition := by
  induction ras generalizing ras' with
  | nil => exact absurd rfl hne
  | cons x ras ih =>
    have hx := hp x (by simp)
    unfold addReplicas at h
    by_cases h1 : x.partition ≥ pid
    · rw [if_pos h1] at h; cases h
    · rw [if_neg h1] at h
      have hpid : 0 < pid := by
        rw [ge_iff_le, Int32.le_iff_toInt_le] at h1
        rw [Int32.lt_iff_toInt_lt] at hx ⊢
        omega
      by_cases h2 : x.partition = pid
      · rw [if_pos h2] at h
        cases h
        refine ⟨by simp, fun ra hra => ?_⟩
        rcases List.mem_cons.1 hra with rfl | hra
        · exact hx
        · exact hp ra (by simp [hra])
      · rw [if_neg h2] at h
        cases hr : addReplicas pid replicas ras with
        | error e => rw [hr] at h; cases h
        | ok l =>
          rw [hr] at h
          cases h
          refine ⟨by simp, fun ra hra => ?_⟩
          rcases List.mem_cons.1 hra with rfl | hra
          · exact hx
          · by_cases hn : ras = []
            · subst hn
              cases hr
              simp only [List.mem_singleton] at hra
              subst hra
              exact hpid
            · exact (ih l hr hn fun ra h => hp ra (by simp [h])).2 ra hra

theorem addAssignments_zero (topic : Bytes) (timeout : UInt32) (l : List (Int32 × List Int32)) (ras : List ReplicaAssignment)
    (hne : ras ≠ []) (hp : ∀ ra ∈ ras, 0 < ra.partition) :
    ∃ ras', addAssignments topic l (createOne topic ras timeout) = createOne topic ras' timeout ∧ ∀ ra ∈ ras', 0 < ra.partition := by
  induction l generalizing ras with
  | nil => exact ⟨ras, rfl, hp⟩
  | cons e l ih =>
    obtain ⟨pid, nodes⟩ := e
    unfold addAssignments
    have e1 : (createOne topic ras timeout).addReplicaAssignment topic pid nodes =
        (addReplicas pid nodes ras).map fun r => createOne topic r timeout := by
      unfold CreateTopicsRequest.addReplicaAssignment createOne addReplicasTo
      simp only [if_true]
      cases addReplicas pid nodes ras <;> rfl
    rw [e1]
    cases hr : addReplicas pid nodes ras with
    | error e => exact ih ras hne hp
    | ok r =>
      obtain ⟨a, b⟩ := addReplicas_zero pid nodes ras r hr hne hp
      exact ih r a b

/-- C129 fails for every assignment and every order of visiting the map, which is up to the Go runtime, in which another
partition comes before partition 0: the request says nothing about partition 0, and is sent all the same. -/
theorem C129_violated_every_order (topic : Bytes) (timeout : UInt32) (a : List (List Int32)) (hne : a ≠ []) (h : ∀ ns ∈ a, ns ≠ [])
    (order : List (Int32 × List Int32) → List (Int32 × List Int32)) (p : Int32) (nodes : List Int32) (rest : List (Int32 × List Int32))
    (ho : order (a.mapIdx fun i nodes => (Int32.ofNat i, nodes)) = (p, nodes) :: rest) (hp : 0 < p) :
    ∃ ras, createTopicRequestOf topic (showAssignment a) timeout order = some (createOne topic ras timeout) ∧
      ∀ ra ∈ ras, ra.partition ≠ 0 := by
  unfold createTopicRequestOf
  rw [C129_parsed_partial a hne h, Option.map_some, ho]
  obtain ⟨ras, e, hr⟩ := addAssignments_zero topic timeout rest [⟨p, nodes⟩] (by simp) (by simpa using hp)
  refine ⟨ras, ?_, fun ra hra h0 => ?_⟩
  · have : CreateTopicsRequest.addReplicaAssignment topic p nodes
        { createTopicRequests := [{ topic := topic, numPartitions := -1, replicationFactor := -1 }], timeout := timeout } =
        .ok (createOne topic [⟨p, nodes⟩] timeout) := by
      unfold CreateTopicsRequest.addReplicaAssignment addReplicasTo
      simp only [if_true]
      rfl
    rw [addAssignments, this, ← e]
  · have := hr ra hra
    rw [h0] at this
    exact absurd this (by decide)

example : (([[1, 2], [2, 13], [3]] : List (List Int32)).mapIdx fun i nodes => (Int32.ofNat i, nodes)).reverse = [(2, [3]), (1, [2, 13]), (0, [1, 2])] ∧
    createTopicRequestOf [116] (showAssignment [[1, 2], [2, 13], [3]]) 0 List.reverse = some (createOne [116] [⟨2, [3]⟩] 0) := by decide +kernel

end Healer
