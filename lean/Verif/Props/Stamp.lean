import Verif.Props.InTime

/-!
# C183: a message carries the time at which it was given to the producer

A run with times is a list of steps of the producer (Model/Producer.lean), each with the time at which it has the lock.
-/

namespace Healer

/-- The timestamps, in Kafka's reading, of the messages in a produce request: that of the batch plus that of the record. -/
def requestStamps (r : ProduceRequest) : List Int :=
  r.topicBlocks.flatMap fun t => t.partitionBlocks.flatMap fun p => p.recordBatches.flatMap fun b =>
    b.records.map fun x => b.baseTimestamp.toInt + x.timestampDelta.toInt

/-- Times of the Go clock in milliseconds. -/
def IsTime (t : Int) : Prop := 0 ≤ t ∧ t < 2 ^ 63

theorem stamps_request (cfg : ProducerCfg) (topic : Bytes) (partition : Int32) (t : Int) (ht : IsTime t) (ms : List KV) :
    requestStamps (produceRequestOf cfg topic partition (Int64.ofInt t) ms) = ms.map fun _ => t := by
  have h : (Int64.ofInt t).toInt = t := Int64.toInt_ofInt_of_le (by have := ht.1; omega) ht.2
  simp [requestStamps, produceRequestOf, createRecordBatch, h, KV.record]

/-- A message with the time at which it was given to the producer and the timestamp with which it was sent. -/
structure Stamped where
  given : Int
  stamp : Int
  message : KV
deriving DecidableEq, Repr

/-- the times at which the waiting messages were given, after an `AddMessage` at `t` -/
def givenTimes (p : SP) (t : Int) (given : List Int) : ProducerAct → List Int
  | .add _ _ _ => if p.closed then given else given ++ [t]
  | _ => given

/-- All that is sent in a run.  `given` are the times at which the messages waiting at the beginning were given. -/
def stampedRun (max : Int) (cfg : ProducerCfg) (topic : Bytes) (partition : Int32) :
    List (Int × ProducerAct) → SP → List Int → List Stamped
  | [], _, _ => []
  | (t, a) :: as, p, given =>
    let now := givenTimes p t given a
    let ms := sentNow max a p
    ((now.zip (requestStamps (produceRequestOf cfg topic partition (Int64.ofInt t) ms))).zip ms).map (fun x => ⟨x.1.1, x.1.2, x.2⟩) ++
      stampedRun max cfg topic partition as (p.step max a) (if (p.step max a).records = [] then [] else now)

theorem step_stamps {cfg : ProducerCfg} {topic : Bytes} {partition : Int32} {t : Int} (ht : IsTime t) {now : List Int} {ms : List KV}
    {s : Stamped} (h : s ∈ ((now.zip (requestStamps (produceRequestOf cfg topic partition (Int64.ofInt t) ms))).zip ms).map
      (fun x => ⟨x.1.1, x.1.2, x.2⟩)) : s.given ∈ now ∧ s.stamp = t := by
  rw [stamps_request cfg topic partition t ht] at h
  obtain ⟨⟨⟨g, st⟩, m⟩, hx, rfl⟩ := List.mem_map.1 h
  have h1 := (List.of_mem_zip hx).1
  obtain ⟨h2, h3⟩ := List.of_mem_zip h1
  obtain ⟨_, _, rfl⟩ := List.mem_map.1 h3
  exact ⟨h2, rfl⟩

theorem givenTimes_le {p : SP} {t : Int} {given : List Int} (a : ProducerAct) (h : ∀ g ∈ given, g ≤ t) :
    ∀ g ∈ givenTimes p t given a, g ≤ t := by
  intro g hg
  unfold givenTimes at hg
  split at hg
  · split at hg
    · exact h g hg
    · rcases List.mem_append.1 hg with hg | hg
      · exact h g hg
      · simp only [List.mem_singleton] at hg
        omega
  · exact h g hg

/-- With a limit of one message nothing is left waiting. -/
theorem step_nothing {max : Int} (hm : max ≤ 1) {p : SP} (hp : p.records = []) (a : ProducerAct) : (p.step max a).records = [] := by
  cases a with
  | add k v x =>
    by_cases hc : p.closed = true
    · simp [SP.step, SP.addMessage, hc, hp]
    · simp [SP.step, SP.addMessage, hc, hp, hm]
  | flush x => simp [SP.step, SP.flushAll, hp]
  | close x => by_cases hc : p.closed = true <;> simp [SP.step, SP.close, hc, hp]
  | write i c => simp [SP.step, hp]

/-- C183, the parts that hold.  No message carries a time before it was given to the producer; and if the producer sends
every message at once (`message.max.count` at most 1), every message carries the time at which it was given. -/
theorem C183_not_before_partial (max : Int) (cfg : ProducerCfg) (topic : Bytes) (partition : Int32)
    (acts : List (Int × ProducerAct)) (hclock : (acts.map Prod.fst).Pairwise (· ≤ ·)) (htime : ∀ x ∈ acts, IsTime x.1) (mem : Nat → Bytes) :
    ∀ s ∈ stampedRun max cfg topic partition acts { mem } [], s.given ≤ s.stamp ∧ (max ≤ 1 → s.stamp = s.given) := by
  have key : ∀ (acts : List (Int × ProducerAct)) (p : SP) (given : List Int), (acts.map Prod.fst).Pairwise (· ≤ ·) →
      (∀ x ∈ acts, IsTime x.1) → (∀ x ∈ acts, ∀ g ∈ given, g ≤ x.1) → (max ≤ 1 → given = [] ∧ p.records = []) →
      ∀ s ∈ stampedRun max cfg topic partition acts p given, s.given ≤ s.stamp ∧ (max ≤ 1 → s.stamp = s.given) := by
    intro acts
    induction acts with
    | nil => intro p given _ _ _ _ s hs; cases hs
    | cons x acts ih =>
      obtain ⟨t, a⟩ := x
      intro p given hc ht hg hm s hs
      rw [List.map_cons, List.pairwise_cons] at hc
      have hle := givenTimes_le (p := p) (t := t) (given := given) a (hg (t, a) (by simp))
      unfold stampedRun at hs
      rcases List.mem_append.1 hs with hs | hs
      · obtain ⟨h1, h2⟩ := step_stamps (ht (t, a) (by simp)) hs
        refine ⟨by rw [h2]; exact hle _ h1, fun h => ?_⟩
        rw [h2]
        rw [(hm h).1] at h1
        unfold givenTimes at h1
        split at h1
        · split at h1
          · cases h1
          · simp only [List.nil_append, List.mem_singleton] at h1
            exact h1.symm
        · cases h1
      · refine ih _ _ hc.2 (fun x hx => ht x (by simp [hx])) ?_ ?_ s hs
        · intro x hx g hg'
          split at hg'
          · cases hg'
          · have h1 := hle g hg'
            have h2 := hc.1 x.1 (List.mem_map_of_mem hx)
            omega
        · intro h
          have h1 := step_nothing h (hm h).2 a
          rw [if_pos h1]
          exact ⟨rfl, h1⟩
  exact key acts { mem } [] hclock htime (fun _ _ _ h => by cases h) (fun _ => ⟨rfl, rfl⟩)

/-- C183 is violated for every message that waits: a message is added at `t` without filling the buffer, and the buffer is
sent at a later time `t'` - by the timer, `Flush` or `Close`.  It is sent with the timestamp `t'`, and so are all messages that
were waiting before it, whenever they were given. -/
theorem C183_violated_every_waiting (max : Int) (cfg : ProducerCfg) (topic : Bytes) (partition : Int32) (p : SP) (hopen : p.closed = false)
    (given : List Int) (hgiven : given.length = p.records.length) (key : Option Nat) (value : Nat) (x y : Option Err)
    (hroom : (p.records.length : Int) + 1 < max) (t t' : Int) (h1 : IsTime t) (h2 : IsTime t') (hlt : t < t') (last : ProducerAct)
    (hlast : last = .flush y ∨ last = .close y) :
    let sent := stampedRun max cfg topic partition [(t, .add key value x), (t', last)] p given
    sent.map Stamped.given = given ++ [t] ∧ (∀ s ∈ sent, s.stamp = t') ∧
    sent.map Stamped.message = (p.records ++ [(⟨key, p.mem value⟩ : Buffered)]).map (Buffered.kv p.mem) ∧
    ∃ s ∈ sent, s.given = t ∧ s.message = ⟨key.map p.mem, p.mem value⟩ ∧ s.stamp ≠ s.given := by
  intro sent
  have hadd : p.step max (.add key value x) =
      { p with records := p.records ++ [⟨key, p.mem value⟩], log := p.log ++ [.added ⟨key.map p.mem, p.mem value⟩ none] } := by
    have : ¬ ((p.records ++ [(⟨key, p.mem value⟩ : Buffered)]).length : Int) ≥ max := by
      rw [List.length_append, List.length_singleton]
      omega
    simp only [SP.step, SP.addMessage, hopen, Bool.false_eq_true, if_false, this]
  have hnone : sentNow max (.add key value x) p = [] := by
    unfold sentNow
    rw [hadd]
    simp
  have hsent : sentNow max last (p.step max (.add key value x)) =
      (p.records ++ [(⟨key, p.mem value⟩ : Buffered)]).map (Buffered.kv p.mem) := by
    rw [hadd]
    unfold sentNow
    rcases hlast with rfl | rfl
    · simp [SP.step, SP.flushAll]
    · simp [SP.step, SP.close, hopen]
  have hrec : (p.step max (.add key value x)).records ≠ [] := by rw [hadd]; simp
  have hval : sent = (((given ++ [t]).zip (((p.records ++ [(⟨key, p.mem value⟩ : Buffered)]).map (Buffered.kv p.mem)).map fun _ => t')).zip
      ((p.records ++ [(⟨key, p.mem value⟩ : Buffered)]).map (Buffered.kv p.mem))).map (fun x => ⟨x.1.1, x.1.2, x.2⟩) := by
    show stampedRun max cfg topic partition [(t, .add key value x), (t', last)] p given = _
    have hg : givenTimes p t given (.add key value x) = given ++ [t] := by simp [givenTimes, hopen]
    have hg' : ∀ q l, givenTimes q t' l last = l := by
      intro q l
      rcases hlast with rfl | rfl <;> rfl
    simp only [stampedRun, hnone, if_neg hrec, hsent, stamps_request cfg topic partition t h1, stamps_request cfg topic partition t' h2, hg, hg',
      List.zip_nil_right, List.map_nil, List.nil_append, List.append_nil]
  generalize hms : (p.records ++ [(⟨key, p.mem value⟩ : Buffered)]).map (Buffered.kv p.mem) = ms at hval ⊢
  have hlen : (given ++ [t]).length = ms.length := by
    rw [← hms]
    simp [hgiven]
  rw [hval]
  have hst : ∀ s ∈ (((given ++ [t]).zip (ms.map fun _ => t')).zip ms).map (fun x => (⟨x.1.1, x.1.2, x.2⟩ : Stamped)), s.stamp = t' := by
    intro s hs
    obtain ⟨⟨⟨g, st⟩, m⟩, hx, rfl⟩ := List.mem_map.1 hs
    obtain ⟨_, h3⟩ := List.of_mem_zip (List.of_mem_zip hx).1
    obtain ⟨_, _, rfl⟩ := List.mem_map.1 h3
    rfl
  have hgv : ((((given ++ [t]).zip (ms.map fun _ => t')).zip ms).map (fun x => (⟨x.1.1, x.1.2, x.2⟩ : Stamped))).map Stamped.given = given ++ [t] := by
    rw [List.map_map, show (Stamped.given ∘ fun x : (Int × Int) × KV => (⟨x.1.1, x.1.2, x.2⟩ : Stamped)) = Prod.fst ∘ Prod.fst from rfl,
      ← List.map_map, List.map_fst_zip (by simp [List.length_zip] at hlen ⊢; omega), List.map_fst_zip (by simp at hlen ⊢; omega)]
  have hmg : ((((given ++ [t]).zip (ms.map fun _ => t')).zip ms).map (fun x => (⟨x.1.1, x.1.2, x.2⟩ : Stamped))).map Stamped.message = ms := by
    rw [List.map_map, show (Stamped.message ∘ fun x : (Int × Int) × KV => (⟨x.1.1, x.1.2, x.2⟩ : Stamped)) = Prod.snd from rfl,
      List.map_snd_zip (by simp [List.length_zip] at hlen ⊢; omega)]
  refine ⟨hgv, hst, hmg, ?_⟩
  generalize (((given ++ [t]).zip (ms.map fun _ => t')).zip ms).map (fun x => (⟨x.1.1, x.1.2, x.2⟩ : Stamped)) = l at hgv hst hmg
  have hne : l ≠ [] := by
    intro h
    rw [h] at hgv
    simp at hgv
  refine ⟨l.getLast hne, List.getLast_mem hne, ?_, ?_, ?_⟩
  · have := congrArg List.getLast? hgv
    rw [List.getLast?_map, List.getLast?_eq_some_getLast hne] at this
    simpa using this
  · have := congrArg List.getLast? hmg
    rw [List.getLast?_map, List.getLast?_eq_some_getLast hne, ← hms] at this
    simpa [Buffered.kv] using this
  · have h3 : (l.getLast hne).given = t := by
      have := congrArg List.getLast? hgv
      rw [List.getLast?_map, List.getLast?_eq_some_getLast hne] at this
      simpa using this
    rw [h3, hst _ (List.getLast_mem hne)]
    omega

/-- Two messages given at 1000 and 1150, sent by the timer at 1200. -/
example : (stampedRun 10 ⟨[], -1, 0, 0, 2⟩ [116] 0 [(1000, .add none 1 none), (1150, .add none 2 none), (1200, .flush none)]
    { mem := fun i => [UInt8.ofNat i] } []) = [⟨1000, 1200, ⟨none, [1]⟩⟩, ⟨1150, 1200, ⟨none, [2]⟩⟩] := by decide +kernel

/-- With a limit of one message they carry their own times. -/
example : (stampedRun 1 ⟨[], -1, 0, 0, 2⟩ [116] 0 [(1000, .add none 1 none), (1150, .add none 2 none), (1200, .flush none)]
    { mem := fun i => [UInt8.ofNat i] } []) = [⟨1000, 1000, ⟨none, [1]⟩⟩, ⟨1150, 1150, ⟨none, [2]⟩⟩] := by decide +kernel

end Healer
