import Verif.Model.Config

/-!
# C53, C54, C110, C111: configurations
-/

namespace Healer

/-! ## The constraints, as documented -/

/-- README and config.go: what a producer's configuration must satisfy. -/
structure DocumentedProducer (c : ProducerConfig) : Prop where
  servers : c.bootstrapServers ≠ ""
  count : 0 < c.messageMaxCount
  flush : 0 < c.flushIntervalMS
  age : 0 < c.metadataMaxAgeMS
  codec : c.compressionType ∈ ["none", "gzip", "snappy", "lz4"]
  acks : c.acks ∈ [-1, 0, 1]
  format : c.healerMagicByte = 2

/-- What a consumer's configuration must satisfy. -/
structure DocumentedConsumer (c : ConsumerConfig) : Prop where
  servers : c.bootstrapServers ≠ ""
  storage : c.offsetsStorage = 0 ∨ c.offsetsStorage = 1
  age : 0 < c.metadataMaxAgeMS
  session : 0 < c.sessionTimeoutMS
  commit : c.autoCommit → 0 < c.autoCommitIntervalMS

theorem int64_not_le {a b : Int64} (h : ¬ a ≤ b) : b < a := by
  rw [Int64.le_iff_toInt_le] at h; rw [Int64.lt_iff_toInt_lt]; omega

theorem ProducerConfig.checkValid_none {c : ProducerConfig} (h : c.checkValid = none) :
    c.bootstrapServers ≠ "" ∧ 0 < c.messageMaxCount ∧ 0 < c.flushIntervalMS ∧ c.compressionType ∈ ["none", "gzip", "snappy", "lz4"] := by
  unfold ProducerConfig.checkValid at h
  split at h
  · cases h
  · split at h
    · cases h
    · split at h
      · cases h
      · split at h
        · rename_i a b c d
          exact ⟨a, int64_not_le b, int64_not_le c, by simpa using d⟩
        · cases h

theorem ProducerConfig.checked_ok {c d : ProducerConfig} (h : c.checked = .ok d) :
    d = c.raiseMagic ∧ c.checkValid = none := by
  unfold ProducerConfig.checked at h
  split at h
  · cases h
  · rename_i hc
    cases h; exact ⟨rfl, hc⟩

/-- C53: a producer's configuration given as a map or as a `ProducerConfig` is accepted only if the servers are given,
the number of messages and the flush interval are positive, the codec is known and the format is at least 2; and such a
configuration is kept as it is, except that a smaller format becomes 2.
Missing for the full statement: no configuration at all, the format, the acknowledgements, the refresh interval
(`C53_violated_producer`). -/
theorem C53_producer_partial (input : ConfigInput ProducerConfig) (given c : ProducerConfig)
    (hin : input = .config given ∨ ∃ decode, input = .map decode ∧ decode defaultProducerConfig = .ok given)
    (h : createProducerConfig input = .ok c) :
    c.bootstrapServers ≠ "" ∧ 0 < c.messageMaxCount ∧ 0 < c.flushIntervalMS ∧ c.compressionType ∈ ["none", "gzip", "snappy", "lz4"] ∧
    2 ≤ c.healerMagicByte ∧ (2 ≤ given.healerMagicByte → c = given) ∧
    c = { given with healerMagicByte := c.healerMagicByte } := by
  have hc : given.checked = .ok c := by
    rcases hin with rfl | ⟨decode, rfl, hd⟩
    · exact h
    · simpa only [createProducerConfig, hd] using h
  obtain ⟨rfl, hv⟩ := ProducerConfig.checked_ok hc
  obtain ⟨h1, h2, h3, h4⟩ := ProducerConfig.checkValid_none hv
  unfold ProducerConfig.raiseMagic
  split
  · rename_i hm
    refine ⟨h1, h2, h3, h4, (by show (2 : Int64) ≤ 2; decide), fun hg => ?_, rfl⟩
    rw [Int64.le_iff_toInt_le] at hg
    rw [Int64.lt_iff_toInt_lt] at hm
    omega
  · rename_i hm
    refine ⟨h1, h2, h3, h4, ?_, fun _ => rfl, rfl⟩
    rw [Int64.lt_iff_toInt_lt] at hm
    rw [Int64.le_iff_toInt_le]
    omega

/-- C53: conversely, a producer's configuration within the documented constraints is accepted unchanged. -/
theorem C53_producer_accepts (c : ProducerConfig) (h : DocumentedProducer c) : createProducerConfig (.config c) = .ok c := by
  have hnot : ∀ a : Int64, 0 < a → ¬ a ≤ 0 := fun a ha hb => by
    rw [Int64.lt_iff_toInt_lt] at ha; rw [Int64.le_iff_toInt_le] at hb; omega
  have hv : c.checkValid = none := by
    unfold ProducerConfig.checkValid
    rw [if_neg h.servers, if_neg (hnot _ h.count), if_neg (hnot _ h.flush), if_pos (by simpa using h.codec)]
  simp only [createProducerConfig, ProducerConfig.checked, hv, ProducerConfig.raiseMagic, h.format]
  rfl

/-- C53 does not hold for producers: no configuration is accepted though it names no servers; and the format 3, the
acknowledgements 7 and the refresh interval 0 (with which `NewTicker` panics) are accepted. -/
theorem C53_violated_producer :
    (∃ c, createProducerConfig .nil = .ok c ∧ c.bootstrapServers = "" ∧ ¬ DocumentedProducer c) ∧
    ∃ given, given.bootstrapServers ≠ "" ∧ createProducerConfig (.config given) = .ok given ∧
      given.healerMagicByte = 3 ∧ given.acks = 7 ∧ given.metadataMaxAgeMS = 0 :=
  ⟨⟨defaultProducerConfig, rfl, rfl, fun h => h.servers rfl⟩,
    ⟨{ defaultProducerConfig with bootstrapServers := "b:9092", healerMagicByte := 3, acks := 7, metadataMaxAgeMS := 0 },
      by decide, rfl, rfl, rfl, rfl⟩⟩

/-! ## Consumers -/

/-- What `resetTimeoutMSForEachAPI` does. -/
theorem ConsumerConfig.reset_ok {c c' : ConsumerConfig} {h h' : IntArrays} (hr : c.reset h = .ok (h', c')) :
    c' = { c with net := { c.net with forEachAPI := c'.net.forEachAPI } } ∧
    ∃ i, c'.net.forEachAPI = some i ∧ i < h'.length ∧ (∃ n, 12 ≤ n ∧ h'.getD i [] = c.timeouts n) ∧
      (∀ j, j ≠ i → j < h.length → h'.getD j [] = h.getD j []) ∧ h.length ≤ h'.length ∧
      (i < h.length → c.net.forEachAPI = some i) := by
  have new : ∀ (r : IntArrays × ConsumerConfig), r = (h ++ [c.timeouts 68], { c with net := { c.net with forEachAPI := some h.length } }) →
      (h', c') = r → c' = { c with net := { c.net with forEachAPI := c'.net.forEachAPI } } ∧
    ∃ i, c'.net.forEachAPI = some i ∧ i < h'.length ∧ (∃ n, 12 ≤ n ∧ h'.getD i [] = c.timeouts n) ∧
      (∀ j, j ≠ i → j < h.length → h'.getD j [] = h.getD j []) ∧ h.length ≤ h'.length ∧
      (i < h.length → c.net.forEachAPI = some i) := by
    rintro _ rfl hr
    cases hr
    refine ⟨rfl, h.length, rfl, by simp, ⟨68, by omega, by simp⟩, ?_, by simp, fun hl => absurd hl (by omega)⟩
    intro j _ hj
    simp [List.getD_eq_getElem?_getD, List.getElem?_append_left hj]
  unfold ConsumerConfig.reset at hr
  split at hr
  · simp only [Out.ok.injEq] at hr
    exact new _ rfl hr.symm
  · rename_i i hi
    simp only at hr
    split at hr
    · simp only [Out.ok.injEq] at hr
      exact new _ rfl hr.symm
    · rename_i hn
      split at hr
      · cases hr
      · rename_i hl
        simp only [Out.ok.injEq, Prod.mk.injEq] at hr
        obtain ⟨rfl, rfl⟩ := hr
        have hlen : i < h.length := by
          apply Classical.byContradiction
          intro hge
          apply hn
          simp [List.getD_eq_getElem?_getD, List.getElem?_eq_none (Nat.le_of_not_lt hge)]
        refine ⟨rfl, i, hi, by simpa using hlen, ⟨(h.getD i []).length, by omega, ?_⟩, ?_, by simp, fun _ => hi⟩
        · rw [List.getD_eq_getElem?_getD (l := h.set _ _), List.getElem?_set_self hlen]
          rfl
        · intro j hj _
          simp [List.getD_eq_getElem?_getD, List.getElem?_set_ne (Ne.symm hj)]

theorem Out.map_ok {α β : Type} {f : α → β} {o : Out α} {b : β} (h : o.map f = .ok b) : ∃ a, o = .ok a ∧ f a = b := by
  cases o with
  | ok a => exact ⟨a, rfl, by simpa [Out.map] using h⟩
  | err e => cases h
  | panic => cases h

/-- the configuration whose timeouts are filled in -/
def chosenConfig (dflt : ConsumerConfig) : ConfigInput ConsumerConfig → ConsumerConfig
  | .nil => dflt
  | .map decode => match decode dflt with
    | .error _ => dflt
    | .ok c => { c with net := { c.net with forEachAPI := dflt.net.forEachAPI } }
  | .config c => c
  | .other => {}

theorem createConsumerConfig_reset {dflt : ConsumerConfig} {input : ConfigInput ConsumerConfig} {h h' : IntArrays} {r : Except Err ConsumerConfig}
    (hc : createConsumerConfig dflt input h = .ok (h', r)) :
    ∃ c, (chosenConfig dflt input).reset h = .ok (h', c) ∧ ∀ d, r = .ok d → d = c := by
  unfold createConsumerConfig at hc
  split at hc
  · obtain ⟨⟨a, c⟩, ha, hb⟩ := Out.map_ok hc
    cases hb; exact ⟨c, ha, fun d hd => by cases hd; rfl⟩
  · split at hc
    · rename_i hd
      obtain ⟨⟨a, c⟩, ha, hb⟩ := Out.map_ok hc
      cases hb; exact ⟨c, by simpa only [chosenConfig, hd] using ha, fun d hd => by cases hd⟩
    · rename_i hd
      obtain ⟨⟨a, c⟩, ha, hb⟩ := Out.map_ok hc
      cases hb; exact ⟨c, by simpa only [chosenConfig, hd] using ha, fun d hd => by cases hd; rfl⟩
  · obtain ⟨⟨a, c⟩, ha, hb⟩ := Out.map_ok hc
    cases hb; exact ⟨c, ha, fun d hd => by cases hd; rfl⟩
  · obtain ⟨⟨a, c⟩, ha, hb⟩ := Out.map_ok hc
    cases hb; exact ⟨c, ha, fun d hd => by cases hd⟩

theorem acceptConsumer_create {kind : ConsumerKind} {dflt : ConsumerConfig} {input : ConfigInput ConsumerConfig} {h h' : IntArrays}
    {r : Except Err ConsumerConfig} (hc : acceptConsumer kind dflt input h = .ok (h', r)) :
    ∃ r', createConsumerConfig dflt input h = .ok (h', r') ∧ ∀ c, r = .ok c → r' = .ok c ∧ (kind = .group → c.checkValid = none) := by
  unfold acceptConsumer at hc
  obtain ⟨⟨a, r'⟩, ha, hb⟩ := Out.map_ok hc
  simp only at hb
  split at hb
  · rename_i e
    simp only [Prod.mk.injEq] at hb
    exact ⟨.error e, by rw [ha, hb.1], fun c hc => by rw [← hb.2] at hc; cases hc⟩
  · rename_i d
    split at hb
    · simp only [Prod.mk.injEq] at hb
      exact ⟨.ok d, by rw [ha, hb.1], fun c hc => by rw [← hb.2] at hc; cases hc⟩
    · rename_i hne
      simp only [Prod.mk.injEq] at hb
      refine ⟨.ok d, by rw [ha, hb.1], fun c hc => ?_⟩
      rw [← hb.2] at hc
      cases hc
      refine ⟨rfl, ?_⟩
      rintro rfl
      cases hv : d.checkValid with
      | none => rfl
      | some e => exact absurd hv (hne e rfl)

/-- C53: a group consumer's configuration is accepted only if the servers and the group are given and the place where
positions are stored is known.
Missing for the full statement: the other kinds of consumers, and the intervals (`C53_violated_consumer`). -/
theorem C53_group_consumer_partial (dflt : ConsumerConfig) (input : ConfigInput ConsumerConfig) (h h' : IntArrays) (c : ConsumerConfig)
    (ha : acceptConsumer .group dflt input h = .ok (h', .ok c)) :
    c.bootstrapServers ≠ "" ∧ c.groupID ≠ "" ∧ (c.offsetsStorage = 0 ∨ c.offsetsStorage = 1) := by
  obtain ⟨r', _, hr⟩ := acceptConsumer_create ha
  have hv := (hr c rfl).2 rfl
  unfold ConsumerConfig.checkValid at hv
  split at hv
  · cases hv
  · split at hv
    · cases hv
    · split at hv
      · cases hv
      · rename_i a b d
        refine ⟨a, b, ?_⟩
        by_cases h0 : c.offsetsStorage = 0
        · exact .inl h0
        · by_cases h1 : c.offsetsStorage = 1
          · exact .inr h1
          · exact absurd ⟨h0, h1⟩ d

/-- a group consumer's configuration -/
def sampleConsumerConfig : ConsumerConfig := { plainConsumerConfig with bootstrapServers := "b:9092", groupID := "g" }

deriving instance DecidableEq for Out

example : ∃ h' c, acceptConsumer .group Clients.init.dflt (.config sampleConsumerConfig) Clients.init.arrays = .ok (h', .ok c) ∧
    c.groupID = "g" := ⟨_, _, rfl, rfl⟩

/-- C53 does not hold for consumers: without servers and with an unknown place for the positions a configuration is
accepted by `NewConsumer` and `NewSimpleConsumer`; and a group consumer accepts intervals which are not positive, with
which `NewTicker` panics. -/
theorem C53_violated_consumer :
    (∀ kind, kind ≠ .group → ∃ given h' c, acceptConsumer kind Clients.init.dflt (.config given) Clients.init.arrays = .ok (h', .ok c) ∧
      c.bootstrapServers = "" ∧ c.offsetsStorage = 7 ∧ ¬ DocumentedConsumer c) ∧
    ∃ given h' c, acceptConsumer .group Clients.init.dflt (.config given) Clients.init.arrays = .ok (h', .ok c) ∧
      c.metadataMaxAgeMS = 0 ∧ c.sessionTimeoutMS = 0 ∧ c.autoCommit = true ∧ c.autoCommitIntervalMS = 0 ∧ ¬ DocumentedConsumer c := by
  constructor
  · intro kind hk
    refine ⟨{ plainConsumerConfig with offsetsStorage := 7 },
      [plainConsumerConfig.timeouts 68, plainConsumerConfig.timeouts 68], { plainConsumerConfig with offsetsStorage := 7, net.forEachAPI := some 1 }, ?_, rfl, rfl, fun h => h.servers rfl⟩
    cases kind with
    | consumer => rfl
    | simple => rfl
    | group => exact absurd rfl hk
  · exact ⟨{ sampleConsumerConfig with metadataMaxAgeMS := 0, sessionTimeoutMS := 0, autoCommitIntervalMS := 0 }, _, _, rfl, rfl, rfl, rfl, rfl,
      fun h => absurd h.age (by decide)⟩

/-! ## C54 -/

/-- What a client sees of its configuration: the timeouts are read from the array at each request. -/
def ConsumerConfig.seen (arrays : IntArrays) (c : ConsumerConfig) : ConsumerConfig × List Int64 := (c, c.net.slice arrays)

/-- the array of a client, if it has one, exists -/
def Clients.WF (w : Clients) : Prop := ∀ c ∈ w.consumers, ∃ i, c.net.forEachAPI = some i ∧ i < w.arrays.length

/-- whether a step gives a client an array of its own -/
def ConfigAct.ownArray : ConfigAct → Prop
  | .consumer _ (.config c) => c.net.forEachAPI = none
  | .consumer _ .other => True
  | .consumer _ _ => False
  | .producer _ => True
  | .defaultConfig => True

theorem Clients.step_arrays {a : ConfigAct} {w w' : Clients} (h : w.step a = .ok w') :
    (w.arrays = w'.arrays ∧ w'.consumers = w.consumers) ∨
    ∃ given c : ConsumerConfig, given.reset w.arrays = .ok (w'.arrays, c) ∧ (w'.consumers = w.consumers ∨ w'.consumers = w.consumers ++ [c]) ∧
      (a.ownArray → given.net.forEachAPI = none) := by
  unfold Clients.step at h
  split at h
  · rename_i kind input
    obtain ⟨⟨arr, r⟩, ha, hb⟩ := Out.map_ok h
    obtain ⟨r', hc, hr⟩ := acceptConsumer_create ha
    obtain ⟨c, hres, hd⟩ := createConsumerConfig_reset hc
    right
    refine ⟨chosenConfig w.dflt input, c, ?_, ?_, ?_⟩
    · simp only at hb
      split at hb <;> (rw [← hb]; exact hres)
    · simp only at hb
      split at hb
      · left; rw [← hb]
      · rename_i d
        right
        rw [← hb, hd d (hr d rfl).1]
    · intro ho
      cases input <;> simp_all [ConfigAct.ownArray, chosenConfig]
  · split at h <;> (cases h; exact .inl ⟨rfl, rfl⟩)
  · obtain ⟨⟨arr, c⟩, ha, hb⟩ := Out.map_ok h
    right
    refine ⟨plainConsumerConfig, c, by rw [← hb]; exact ha, .inl (by rw [← hb]), fun _ => rfl⟩

theorem Clients.step_wf {a : ConfigAct} {w w' : Clients} (hw : w.WF) (h : w.step a = .ok w') : w'.WF := by
  rcases Clients.step_arrays h with ⟨h1, h2⟩ | ⟨given, c, hr, hc, _⟩
  · intro d hd
    rw [h2] at hd
    rw [← h1]
    exact hw d hd
  · obtain ⟨_, i, hi, hlt, _, _, hle, _⟩ := ConsumerConfig.reset_ok hr
    intro d hd
    rcases hc with hc | hc
    · rw [hc] at hd
      obtain ⟨k, hk, hk'⟩ := hw d hd
      exact ⟨k, hk, by omega⟩
    · rw [hc] at hd
      rcases List.mem_append.1 hd with hd | hd
      · obtain ⟨k, hk, hk'⟩ := hw d hd
        exact ⟨k, hk, by omega⟩
      · simp only [List.mem_singleton] at hd
        subst hd
        exact ⟨i, hi, hlt⟩

theorem Clients.run_wf : ∀ (as : List ConfigAct) {w w' : Clients}, w.WF → w.run as = .ok w' → w'.WF
  | [], w, w', hw, h => by cases h; exact hw
  | a :: as, w, w', hw, h => by
    unfold Clients.run at h
    split at h
    · rename_i v hv
      exact Clients.run_wf as (Clients.step_wf hw hv) h
    · cases h
    · cases h

/-- C54: making a producer, calling `DefaultConsumerConfig`, or making a consumer from a `ConsumerConfig` without
timeouts of its own changes nothing for the clients which exist; and making any consumer changes nothing for those
which do not share the array of its timeouts.
Missing for the full statement: consumers made from nil or a map, which all share one array, and consumers made from
copies of one `ConsumerConfig` (`C54_violated`). -/
theorem C54_own_array_partial (as : List ConfigAct) (a : ConfigAct) (w w' : Clients) (hrun : Clients.init.run as = .ok w) (h : w.step a = .ok w') :
    (∃ new, w'.consumers = w.consumers ++ new) ∧
    (a.ownArray → ∀ c ∈ w.consumers, c.seen w'.arrays = c.seen w.arrays) ∧
    (∀ c ∈ w.consumers, ∀ d, w'.consumers = w.consumers ++ [d] → d.net.forEachAPI ≠ c.net.forEachAPI → c.seen w'.arrays = c.seen w.arrays) := by
  have hw : w.WF := Clients.run_wf as (by intro c hc; simp [Clients.init] at hc) hrun
  rcases Clients.step_arrays h with ⟨h1, h2⟩ | ⟨given, c, hr, hc, ho⟩
  · refine ⟨⟨[], by simp [h2]⟩, fun _ c _ => by rw [h1], fun c _ d hd => by rw [h1]; intro _; rfl⟩
  · obtain ⟨_, i, hi, hlt, _, hkeep, hle, hold⟩ := ConsumerConfig.reset_ok hr
    have keep : ∀ d ∈ w.consumers, d.net.forEachAPI ≠ some i → d.seen w'.arrays = d.seen w.arrays := by
      intro d hd hne
      obtain ⟨k, hk, hk'⟩ := hw d hd
      have : k ≠ i := by rintro rfl; exact hne hk
      simp only [ConsumerConfig.seen, NetConfig.slice, hk, hkeep k this hk']
    refine ⟨?_, fun hown d hd => ?_, fun d hd e he hne => ?_⟩
    · rcases hc with hc | hc
      · exact ⟨[], by simp [hc]⟩
      · exact ⟨_, hc⟩
    · apply keep d hd
      intro hdi
      obtain ⟨k, hk, hk'⟩ := hw d hd
      rw [hk] at hdi
      cases hdi
      have := hold hk'
      rw [ho hown] at this
      cases this
    · apply keep d hd
      rcases hc with hc | hc
      · rw [hc] at he
        have := congrArg List.length he
        simp at this
      · rw [hc] at he
        simp only [List.append_cancel_left_eq, List.cons.injEq, and_true] at he
        subst he
        rw [hi] at hne
        exact fun hh => hne hh.symm

/-- a consumer from nil, then one from a map with a shorter timeout -/
def sharingActs : List ConfigAct :=
  [.consumer .consumer .nil, .consumer .consumer (.map fun c => .ok { c with net := { c.net with timeoutMS := 1000 } })]

example : ∃ w, Clients.init.run [.consumer .consumer .nil, .consumer .simple (.config sampleConsumerConfig)] = .ok w ∧
    (ConfigAct.consumer .group (.config sampleConsumerConfig)).ownArray ∧ w.consumers.length = 2 := ⟨_, rfl, rfl, rfl⟩

/-- C54 does not hold: a consumer made without a configuration waits 30 s for the answer to a metadata request (api 3);
once another consumer is made from a map with a timeout of 1 s, it waits 1 s; and once a third one is made without a
configuration, the second waits 30 s. -/
theorem C54_violated : ∃ w w' w'', Clients.init.run (sharingActs.take 1) = .ok w ∧ Clients.init.run sharingActs = .ok w' ∧
    Clients.init.run (sharingActs ++ [.consumer .consumer .nil]) = .ok w'' ∧
    ∃ c d, w.consumers = [c] ∧ w'.consumers = [c, d] ∧ c.net.timeoutFor w.arrays 3 = 30000 ∧ c.net.timeoutFor w'.arrays 3 = 1000 ∧
      d.net.timeoutFor w'.arrays 3 = 1000 ∧ d.net.timeoutFor w''.arrays 3 = 30000 :=
  ⟨_, _, _, rfl, rfl, rfl, _, _, rfl, rfl, by decide +kernel, by decide +kernel, by decide +kernel, by decide +kernel⟩

/-! ## C110 -/

/-- C110: when a consumer has just been made, the answer to a join request is awaited for 5 s more than the session
timeout, the answer to a fetch request for as long as the broker may take more than the timeout (so no shorter than the
broker may take), the answer to an offset commit for half the session timeout, and all others for the timeout. -/
theorem C110_timeouts (kind : ConsumerKind) (dflt : ConsumerConfig) (input : ConfigInput ConsumerConfig) (h h' : IntArrays) (c : ConsumerConfig)
    (ha : acceptConsumer kind dflt input h = .ok (h', .ok c)) (hs : 0 ≤ c.sessionTimeoutMS) :
    (c.net.timeoutFor h' 11).toInt = c.sessionTimeoutMS.toInt + 5000 ∧
    c.net.fetchTimeout h' = c.net.timeoutMS + c.fetchMaxWaitMS.toInt64 ∧
    (0 ≤ c.net.timeoutMS.toInt → c.net.timeoutMS.toInt < 2 ^ 62 → c.fetchMaxWaitMS.toInt ≤ (c.net.fetchTimeout h').toInt) ∧
    (1 < c.sessionTimeoutMS.toInt → (c.net.timeoutFor h' 8).toInt = c.sessionTimeoutMS.toInt / 2) ∧
    ∀ api, api ≠ 1 → api ≠ 8 → api ≠ 11 → c.net.timeoutFor h' api = c.net.timeoutMS := by
  obtain ⟨r', hc, hr⟩ := acceptConsumer_create ha
  obtain ⟨d, hres, hd⟩ := createConsumerConfig_reset hc
  have := hd c (hr c rfl).1
  subst this
  obtain ⟨heq, i, hi, hlt, ⟨n, hn, harr⟩, _⟩ := ConsumerConfig.reset_ok hres
  generalize chosenConfig dflt input = g at heq harr
  have hsl : c.net.slice h' = c.timeouts n := by
    simp only [NetConfig.slice, hi, harr]
    rw [heq]; rfl
  have hlen : (c.timeouts n).length = n := by simp [ConsumerConfig.timeouts]
  have hsum : (c.sessionTimeoutMS.toInt64 + 5000).toInt = c.sessionTimeoutMS.toInt + 5000 := by
    have h1 := Int32.toInt_lt c.sessionTimeoutMS
    have h2 := Int32.le_toInt c.sessionTimeoutMS
    rw [Int64.toInt_add, Int32.toInt_toInt64]
    show (c.sessionTimeoutMS.toInt + 5000).bmod (2^64) = _
    rw [Int.bmod_eq_of_le] <;> omega
  have h11 : (c.timeouts n).getD 11 0 = c.sessionTimeoutMS.toInt64 + 5000 := by
    simp [ConsumerConfig.timeouts, List.getD_eq_getElem?_getD, List.getElem?_set, List.getElem?_replicate, show 11 < n by omega]
  have h1 : (c.timeouts n).getD 1 0 = c.net.timeoutMS + c.fetchMaxWaitMS.toInt64 := by
    simp [ConsumerConfig.timeouts, List.getD_eq_getElem?_getD, List.getElem?_set, show 1 < n by omega]
  have h8 : (c.timeouts n).getD 8 0 = c.sessionTimeoutMS.toInt64 / 2 := by
    simp [ConsumerConfig.timeouts, List.getD_eq_getElem?_getD, List.getElem?_set, show 8 < n by omega]
  have hft : c.net.fetchTimeout h' = c.net.timeoutMS + c.fetchMaxWaitMS.toInt64 := by
    unfold NetConfig.fetchTimeout
    rw [hsl, hlen, if_pos (by omega), h1]
  refine ⟨?_, hft, ?_, ?_, ?_⟩
  · unfold NetConfig.timeoutFor
    rw [hsl, hlen, if_pos (by omega), h11, if_pos, hsum]
    show (0 : Int64) < _
    rw [Int64.lt_iff_toInt_lt, hsum]
    rw [Int32.le_iff_toInt_le] at hs
    have : (0 : Int32).toInt = 0 := rfl
    show (0 : Int) < _
    omega
  · intro h0 h62
    have h1 := Int32.toInt_lt c.fetchMaxWaitMS
    have h2 := Int32.le_toInt c.fetchMaxWaitMS
    rw [hft, Int64.toInt_add, Int32.toInt_toInt64, Int.bmod_eq_of_le] <;> omega
  · intro h2
    have hlt := Int32.toInt_lt c.sessionTimeoutMS
    have hhalf : (c.sessionTimeoutMS.toInt64 / 2).toInt = c.sessionTimeoutMS.toInt / 2 := by
      rw [Int64.toInt_div, Int32.toInt_toInt64]
      show (c.sessionTimeoutMS.toInt.tdiv 2).bmod (2^64) = _
      rw [Int.tdiv_eq_ediv_of_nonneg (by omega), Int.bmod_eq_of_le] <;> omega
    unfold NetConfig.timeoutFor
    rw [hsl, hlen, if_pos (by omega), h8, if_pos, hhalf]
    show (0 : Int64) < _
    rw [Int64.lt_iff_toInt_lt, hhalf]
    show (0 : Int) < _
    omega
  · intro api ha1 ha8 ha11
    unfold NetConfig.timeoutFor
    rw [hsl, hlen]
    split
    · rename_i hlt
      have : (c.timeouts n).getD api 0 = c.net.timeoutMS := by
        simp [ConsumerConfig.timeouts, List.getD_eq_getElem?_getD, List.getElem?_set, List.getElem?_replicate, Ne.symm ha1, Ne.symm ha8, Ne.symm ha11, hlt]
      rw [this]
      split <;> rfl
    · rfl

example : ∃ h' c, acceptConsumer .group Clients.init.dflt (.config sampleConsumerConfig) Clients.init.arrays = .ok (h', .ok c) ∧
    0 ≤ c.sessionTimeoutMS ∧ c.net.timeoutFor h' 11 = 35000 := ⟨_, _, rfl, by decide, by decide +kernel⟩

/-! ## C111 -/

/-- C111 does not hold: timeouts for single APIs given by the user are overwritten; and if fewer than twelve are given,
making the consumer panics. -/
theorem C111_violated :
    (∃ arrays c h' c', c.net.timeoutFor arrays 3 = 7 ∧
      acceptConsumer .simple Clients.init.dflt (.config c) arrays = .ok (h', .ok c') ∧ c'.net.timeoutFor h' 3 = 30000) ∧
    ∃ arrays c, acceptConsumer .simple Clients.init.dflt (.config c) arrays = .panic :=
  ⟨⟨[List.replicate 68 7], { sampleConsumerConfig with net.forEachAPI := some 0, net.timeoutMS := 30000 }, _, _, by decide +kernel, rfl, by decide +kernel⟩,
    ⟨[[100, 100]], { sampleConsumerConfig with net.forEachAPI := some 0 }, rfl⟩⟩

/-- C111, for producers: with an accepted configuration, the time given for an API is waited for its answers; where none
(or zero) is given, the general timeout.  Missing: consumers (`C111_violated`). -/
theorem C111_producer_partial (given c : ProducerConfig) (h : createProducerConfig (.config given) = .ok c) (arrays : IntArrays) (api : Nat) :
    (∀ i ts t, given.net.forEachAPI = some i → arrays[i]? = some ts → ts[api]? = some t → 0 < t → c.net.timeoutFor arrays api = t) ∧
    ((given.net.forEachAPI = none ∨ ∃ i ts, given.net.forEachAPI = some i ∧ arrays[i]? = some ts ∧ ∀ t, ts[api]? = some t → t = 0) →
      c.net.timeoutFor arrays api = given.net.timeoutMS) := by
  have hn : c.net = given.net := by
    have := (C53_producer_partial (.config given) given c (Or.inl rfl) h).2.2.2.2.2.2
    rw [this]
  rw [hn]
  unfold NetConfig.timeoutFor NetConfig.slice
  constructor
  · intro i ts t h1 h2 h3 h4
    rw [h1]
    simp only [List.getD_eq_getElem?_getD, h2, Option.getD_some, h3]
    rw [if_pos (List.getElem?_eq_some_iff.1 h3).1, if_pos h4]
  · rintro (h1 | ⟨i, ts, h1, h2, h3⟩)
    · rw [h1]
      simp
    · rw [h1]
      simp only [List.getD_eq_getElem?_getD, h2, Option.getD_some]
      split
      · next hlt =>
        have := h3 _ (List.getElem?_eq_getElem hlt)
        rw [List.getElem?_eq_getElem hlt, this]
        rw [if_neg (by decide)]
      · rfl

example : createProducerConfig (.config { defaultProducerConfig with bootstrapServers := "b:9092", net.forEachAPI := some 0 }) =
    .ok { defaultProducerConfig with bootstrapServers := "b:9092", net.forEachAPI := some 0 } := rfl

end Healer
