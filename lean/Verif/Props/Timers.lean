import Verif.Model.Timers
import Verif.Props.Config

/-!
# C155: periodic work happens at the configured intervals
-/

namespace Healer

/-! ## The intervals -/

/-- The largest number of milliseconds that is an int64 in nanoseconds: 292 years. -/
def maxMillis : Int := 9223372036854

theorem millis_toInt {ms : Int64} (h0 : 0 ≤ ms.toInt) (h : ms.toInt ≤ maxMillis) : (millis ms).toInt = 1000000 * ms.toInt := by
  unfold maxMillis at h
  unfold millis
  rw [Int64.toInt_mul]
  have : (1000000 : Int64).toInt = 1000000 := rfl
  rw [this]
  apply Int.bmod_eq_of_le <;> omega

theorem newTicker_ok {d : Int64} (h : 0 < d.toInt) : newTicker d = .ok d := by
  unfold newTicker
  rw [if_neg]
  rw [Int64.le_iff_toInt_le]
  have : (0 : Int64).toInt = 0 := rfl
  omega

theorem millis_ticker {ms : Int64} (h0 : 0 < ms.toInt) (h : ms.toInt ≤ maxMillis) :
    ∃ d, newTicker (millis ms) = .ok d ∧ d.toInt = 1000000 * ms.toInt := by
  have hm := millis_toInt (by omega) h
  exact ⟨_, newTicker_ok (by omega), hm⟩

/-- C155: a consumer whose configuration was accepted, in whatever form it was given, beats every tenth of the session
timeout it has, asks for the metadata at the configured interval, and commits at the configured interval if it commits at
all; and these are the intervals that were given.
Missing for the full statement: intervals which are not positive, or of more than 292 years, are accepted as well
(`C155_violated_consumer`). -/
theorem C155_consumer_partial (kind : ConsumerKind) (dflt : ConsumerConfig) (given c : ConsumerConfig) (input : ConfigInput ConsumerConfig)
    (hin : input = .config given ∨ (∃ decode, input = .map decode ∧ decode dflt = .ok given) ∨ (input = .nil ∧ given = dflt))
    (h h' : IntArrays) (ha : acceptConsumer kind dflt input h = .ok (h', .ok c))
    (hs : 0 < given.sessionTimeoutMS.toInt)
    (hm : 0 < given.metadataMaxAgeMS.toInt ∧ given.metadataMaxAgeMS.toInt ≤ 9223372036854)
    (hc : 0 < given.autoCommitIntervalMS.toInt ∧ given.autoCommitIntervalMS.toInt ≤ 9223372036854) :
    (∃ d, c.heartTicker = .ok d ∧ 10 * d.toInt = 1000000 * given.sessionTimeoutMS.toInt) ∧
    (∃ d, c.metadataTicker = .ok d ∧ d.toInt = 1000000 * given.metadataMaxAgeMS.toInt) ∧
    (given.autoCommit = true → given.groupID ≠ "" → ∃ d, c.commitTicker = some (.ok d) ∧ d.toInt = 1000000 * given.autoCommitIntervalMS.toInt) ∧
    ((given.autoCommit = false ∨ given.groupID = "") → c.commitTicker = none) := by
  obtain ⟨r', hr, hacc⟩ := acceptConsumer_create ha
  obtain ⟨hr', _⟩ := hacc c rfl
  obtain ⟨c', hreset, hd⟩ := createConsumerConfig_reset hr
  have hcc := hd c hr'
  subst hcc
  obtain ⟨heq, _⟩ := ConsumerConfig.reset_ok hreset
  have hch : ∃ x, chosenConfig dflt input = { given with net := x } := by
    rcases hin with rfl | ⟨decode, rfl, hdec⟩ | ⟨rfl, rfl⟩
    · exact ⟨_, rfl⟩
    · refine ⟨{ given.net with forEachAPI := dflt.net.forEachAPI }, ?_⟩
      simp only [chosenConfig, hdec]
    · exact ⟨_, rfl⟩
  obtain ⟨x, hx⟩ := hch
  rw [hx] at heq
  generalize c.net.forEachAPI = y at heq
  subst heq
  refine ⟨?_, millis_ticker hm.1 hm.2, fun h1 h2 => ?_, fun h1 => ?_⟩
  · have hlt : given.sessionTimeoutMS.toInt64.toInt ≤ maxMillis := by
      rw [Int32.toInt_toInt64]
      have := given.sessionTimeoutMS.toInt_lt
      unfold maxMillis; omega
    have hmt := millis_toInt (ms := given.sessionTimeoutMS.toInt64) (by rw [Int32.toInt_toInt64]; omega) hlt
    rw [Int32.toInt_toInt64] at hmt
    have hdiv : (millis given.sessionTimeoutMS.toInt64 / 10).toInt = 100000 * given.sessionTimeoutMS.toInt := by
      rw [Int64.toInt_div, hmt]
      have : (10 : Int64).toInt = 10 := rfl
      rw [this, Int.tdiv_eq_ediv_of_nonneg (by omega)]
      rw [show 1000000 * given.sessionTimeoutMS.toInt / 10 = 100000 * given.sessionTimeoutMS.toInt by omega]
      have := given.sessionTimeoutMS.toInt_lt
      apply Int.bmod_eq_of_le <;> omega
    exact ⟨_, newTicker_ok (by rw [hdiv]; omega), by show 10 * (millis given.sessionTimeoutMS.toInt64 / 10).toInt = _; rw [hdiv]; omega⟩
  · obtain ⟨d, hd1, hd2⟩ := millis_ticker hc.1 hc.2
    exact ⟨d, by simp only [ConsumerConfig.commitTicker, h1, h2, ne_eq, not_false_eq_true, and_self, if_true, hd1], hd2⟩
  · rcases h1 with h1 | h1 <;> simp [ConsumerConfig.commitTicker, h1]

example : ∃ h' c d, acceptConsumer .group Clients.init.dflt (.config sampleConsumerConfig) Clients.init.arrays = .ok (h', .ok c) ∧
    c.heartTicker = .ok d ∧ d.toInt = 3000000000 ∧ c.metadataTicker = .ok 300000000000 ∧ c.commitTicker = some (.ok 5000000000) :=
  ⟨_, _, _, rfl, rfl, rfl, rfl, rfl⟩

/-- C155: a producer whose configuration was accepted flushes and asks for the metadata at the intervals given.
Missing for the full statement: an interval of more than 292 years, and for the metadata one which is not positive, are
accepted as well (`C155_violated_producer`). -/
theorem C155_producer_partial (given c : ProducerConfig) (input : ConfigInput ProducerConfig)
    (hin : input = .config given ∨ ∃ decode, input = .map decode ∧ decode defaultProducerConfig = .ok given)
    (ha : createProducerConfig input = .ok c)
    (hf : given.flushIntervalMS.toInt ≤ 9223372036854)
    (hm : 0 < given.metadataMaxAgeMS.toInt ∧ given.metadataMaxAgeMS.toInt ≤ 9223372036854) :
    (∃ d, c.flushTicker = .ok d ∧ d.toInt = 1000000 * given.flushIntervalMS.toInt) ∧
    (∃ d, c.metadataTicker = .ok d ∧ d.toInt = 1000000 * given.metadataMaxAgeMS.toInt) := by
  obtain ⟨_, _, h3, _, _, _, heq⟩ := C53_producer_partial input given c hin ha
  generalize c.healerMagicByte = m at heq
  subst heq
  rw [Int64.lt_iff_toInt_lt] at h3
  exact ⟨millis_ticker h3 hf, millis_ticker hm.1 hm.2⟩

example : ∃ c, createProducerConfig (.config { defaultProducerConfig with bootstrapServers := "b:9092" }) = .ok c ∧
    c.flushTicker = .ok 200000000 ∧ c.metadataTicker = .ok 300000000000 := ⟨_, rfl, rfl, rfl⟩

/-- C155 does not hold for consumers: a configuration with a session timeout of 0 (as in a `ConsumerConfig` whose author
left it out) is accepted by `NewGroupConsumer`, and `Consume` panics.  The same for the interval of the metadata and that
of the commits, there in a goroutine, which ends the program. -/
theorem C155_violated_consumer :
    ∃ given h' c, acceptConsumer .group Clients.init.dflt (.config given) Clients.init.arrays = .ok (h', .ok c) ∧
      given.bootstrapServers ≠ "" ∧ given.groupID ≠ "" ∧ given.sessionTimeoutMS = 0 ∧ given.metadataMaxAgeMS = 0 ∧
      c.heartTicker = .panic ∧ c.metadataTicker = .panic ∧ c.commitTicker = some .panic :=
  ⟨{ sampleConsumerConfig with sessionTimeoutMS := 0, metadataMaxAgeMS := 0, autoCommitIntervalMS := 0 }, _, _, rfl, by decide, by decide,
    rfl, rfl, rfl, rfl, by decide⟩

/-- C155 does not hold for producers: without an interval for the metadata a configuration is accepted, and a goroutine
panics; and a flush interval which is positive, as `checkValid` demands, can overflow, with the same effect. -/
theorem C155_violated_producer :
    (∃ c, createProducerConfig (.config { defaultProducerConfig with bootstrapServers := "b:9092", metadataMaxAgeMS := 0 }) = .ok c ∧
      c.flushTicker = .ok 200000000 ∧ c.metadataTicker = .panic) ∧
    ∃ c, createProducerConfig (.config { defaultProducerConfig with bootstrapServers := "b:9092", flushIntervalMS := 9223372036855 }) = .ok c ∧
      0 < c.flushIntervalMS ∧ c.flushTicker = .panic :=
  ⟨⟨_, rfl, rfl, rfl⟩, _, rfl, by decide, rfl⟩

/-! ## The rounds -/

theorem nextTick_bounds {d last now : Nat} (hd : 0 < d) (h : last ≤ now) :
    now ≤ nextTick d last now ∧ nextTick d last now ≤ max now (last + d) ∧ last < nextTick d last now := by
  unfold nextTick
  have h1 : now < (now / d + 1) * d := by
    have := Nat.div_add_mod now d
    have := Nat.mod_lt now hd
    rw [Nat.add_mul, Nat.one_mul, Nat.mul_comm]; omega
  have h2 : now / d * d ≤ now := Nat.div_mul_le_self now d
  split
  · rename_i hlt
    refine ⟨Nat.le_refl _, Nat.le_max_left _ _, ?_⟩
    rcases Nat.lt_or_eq_of_le h with h | h
    · exact h
    · subst h; omega
  · rename_i hge
    have heq : last / d = now / d := Nat.le_antisymm (Nat.div_le_div_right h) (by omega)
    refine ⟨by omega, ?_, by omega⟩
    have h3 : last / d * d ≤ last := Nat.div_mul_le_self last d
    rw [heq] at h3
    rw [Nat.add_mul, Nat.one_mul]
    omega

theorem tickerRounds_length (d : Nat) : ∀ (ts : List Nat) (last now : Nat), (tickerRounds d last now ts).length = ts.length
  | [], _, _ => rfl
  | t :: ts, last, now => by simp [tickerRounds, tickerRounds_length d ts]

theorem tickerRounds_gap (d : Nat) (hd : 0 < d) : ∀ (ts : List Nat) (last now k : Nat) (s s' t : Nat), last ≤ now →
    (tickerRounds d last now ts)[k]? = some s → (tickerRounds d last now ts)[k + 1]? = some s' → ts[k]? = some t →
    s + t ≤ s' ∧ s' ≤ s + max d t
  | [], _, _, k, s, s', t, _, h, _, _ => by simp [tickerRounds] at h
  | t0 :: [], last, now, k, s, s', t, _, _, h', _ => by simp [tickerRounds] at h'
  | t0 :: t1 :: ts, last, now, k, s, s', t, hl, h, h', ht => by
    cases k with
    | zero =>
      simp only [tickerRounds, List.getElem?_cons_zero, Option.some.injEq, List.getElem?_cons_succ] at h h' ht
      subst h h' ht
      have := nextTick_bounds hd (last := nextTick d last now) (now := nextTick d last now + t0) (by omega)
      omega
    | succ k =>
      exact tickerRounds_gap d hd (t1 :: ts) (nextTick d last now) (nextTick d last now + t0) k s s' t (by omega) h h' ht

theorem tickerRounds_regular (d : Nat) (hd : 0 < d) : ∀ (ts : List Nat) (n t0 k : Nat), t0 < d → (∀ t ∈ ts, t < d) → k < ts.length →
    (tickerRounds d (n * d) (n * d + t0) ts)[k]? = some ((n + k + 1) * d)
  | [], _, _, _, _, _, h => by simp at h
  | t :: ts, n, t0, k, h0, hts, hk => by
    have hq : (n * d + t0) / d = n := by
      rw [Nat.mul_comm, Nat.mul_add_div hd, Nat.div_eq_of_lt h0]; rfl
    have hnext : nextTick d (n * d) (n * d + t0) = (n + 1) * d := by
      unfold nextTick
      rw [hq, Nat.mul_div_cancel _ hd, if_neg (by omega)]
    cases k with
    | zero => simp only [tickerRounds, List.getElem?_cons_zero, hnext]
    | succ k =>
      simp only [tickerRounds, List.getElem?_cons_succ, hnext]
      rw [tickerRounds_regular d hd ts (n + 1) t k (hts t (by simp)) (fun x hx => hts x (by simp [hx])) (by simpa using hk)]
      congr 2; omega

/-- C155: in every run of a group consumer which was accepted with a positive session timeout, the first heartbeat is due
a tenth of the session timeout after `Consume`; if no round (a heartbeat, or a restart after a failed one) takes as long
as the session timeout, less than the session timeout passes from one round to the next; and if each takes less
than a tenth of it, the rounds come exactly every tenth. -/
theorem C155_heartbeats_in_time (kind : ConsumerKind) (dflt given c : ConsumerConfig) (h h' : IntArrays)
    (ha : acceptConsumer kind dflt (.config given) h = .ok (h', .ok c)) (hs : 0 < given.sessionTimeoutMS.toInt)
    (hm : 0 < given.metadataMaxAgeMS.toInt ∧ given.metadataMaxAgeMS.toInt ≤ 9223372036854)
    (hc : 0 < given.autoCommitIntervalMS.toInt ∧ given.autoCommitIntervalMS.toInt ≤ 9223372036854)
    (session : Nat) (hses : (session : Int) = 1000000 * given.sessionTimeoutMS.toInt) (took : List Nat) :
    ∃ d, c.heartTicker = .ok d ∧
      (took ≠ [] → ((tickerRounds d.toInt.toNat 0 0 took)[0]?).map (10 * ·) = some session) ∧
      (∀ k s s' t, (tickerRounds d.toInt.toNat 0 0 took)[k]? = some s → (tickerRounds d.toInt.toNat 0 0 took)[k + 1]? = some s' →
        took[k]? = some t → s + t ≤ s' ∧ (t < session → s' < s + session)) ∧
      ((∀ t ∈ took, 10 * t < session) → ∀ k, k < took.length →
        ((tickerRounds d.toInt.toNat 0 0 took)[k]?).map (10 * ·) = some ((k + 1) * session)) := by
  obtain ⟨⟨d, hd, h10⟩, _⟩ := C155_consumer_partial kind dflt given c _ (.inl rfl) h h' ha hs hm hc
  refine ⟨d, hd, ?_⟩
  obtain ⟨n, hn⟩ : ∃ n : Nat, d.toInt.toNat = n := ⟨_, rfl⟩
  have hsn : 10 * n = session := by omega
  have hpos : 0 < n := by omega
  rw [hn]
  refine ⟨fun hne => ?_, fun k s s' t h1 h2 h3 => ?_, fun hall k hk => ?_⟩
  · cases took with
    | nil => exact absurd rfl hne
    | cons t ts => simp [tickerRounds, nextTick, hsn]
  · obtain ⟨h4, h5⟩ := tickerRounds_gap n hpos took 0 0 k s s' t (Nat.le_refl _) h1 h2 h3
    exact ⟨h4, fun ht => by omega⟩
  · have := tickerRounds_regular n hpos took 0 0 k hpos (fun t ht => by have := hall t ht; omega) hk
    simp only [Nat.zero_mul, Nat.zero_add] at this
    rw [this, Option.map_some, ← hsn]
    congr 1
    rw [Nat.mul_left_comm]

/-- Heartbeats of 1 s, 4 s (longer than the interval of 3 s), 1 s and 1 s. -/
example : tickerRounds 3000000000 0 0 [1000000000, 4000000000, 1000000000, 1000000000] =
    [3000000000, 6000000000, 10000000000, 12000000000] := rfl

end Healer
