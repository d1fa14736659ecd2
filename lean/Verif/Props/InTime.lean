import Verif.Model.Producer
import Verif.Props.Timers

/-!
# C156: a message does not wait longer than the flush interval

A run with times is a list of steps of the producer (Model/Producer.lean), each with the time at which it has the lock.
-/

namespace Healer

/-- The messages which the step `a` hands to the broker, in the state `p`. -/
def sentNow (max : Int) (a : ProducerAct) (p : SP) : List KV :=
  ((p.step max a).log.drop p.log.length).flatMap fun
    | .sent ms _ => ms
    | _ => []

/-- In a run from the state `p`, step number `k` hands over a message with the value `v` and with what the slice `key` of the
caller holds at that time. -/
def HandedOver (max : Int) (acts : List ProducerAct) (p : SP) (k : Nat) (key : Option Nat) (v : Bytes) : Prop :=
  ∃ a, acts[k]? = some a ∧ ⟨key.map (SP.run max (acts.take k) p).mem, v⟩ ∈ sentNow max a (SP.run max (acts.take k) p)

theorem handedOver_cons {max : Int} {a : ProducerAct} {as : List ProducerAct} {p : SP} {k : Nat} {key : Option Nat} {v : Bytes}
    (h : HandedOver max as (p.step max a) k key v) : HandedOver max (a :: as) p (k + 1) key v := by
  obtain ⟨b, hb, hm⟩ := h
  exact ⟨b, hb, hm⟩

theorem sentNow_flush {max : Int} {p : SP} {b : Buffered} (x : Option Err) (hb : b ∈ p.records) : b.kv p.mem ∈ sentNow max (.flush x) p := by
  have : p.records.length > 0 := List.length_pos_of_mem hb
  simp only [sentNow, SP.step, SP.flushAll, this, if_true, List.drop_left, List.flatMap_cons, List.flatMap_nil, List.append_nil]
  exact List.mem_map_of_mem hb

theorem sentNow_close {max : Int} {p : SP} {b : Buffered} (x : Option Err) (hb : b ∈ p.records) (hc : p.closed = false) :
    b.kv p.mem ∈ sentNow max (.close x) p := by
  have : p.records.length > 0 := List.length_pos_of_mem hb
  simp only [sentNow, SP.step, SP.close, hc, Bool.false_eq_true, if_false, this, if_true, List.drop_left, List.flatMap_cons, List.flatMap_nil, List.append_nil]
  exact List.mem_map_of_mem hb

/-- Adding keeps what is waiting, or hands over all of it. -/
theorem add_keeps {max : Int} {p : SP} {b : Buffered} (key : Option Nat) (value : Nat) (x : Option Err) (hc : p.closed = false)
    (hb : b ∈ p.records ∨ b = ⟨key, p.mem value⟩) :
    b.kv p.mem ∈ sentNow max (.add key value x) p ∨
    (b ∈ (p.step max (.add key value x)).records ∧ (p.step max (.add key value x)).closed = false) := by
  have hb' : b ∈ p.records ++ [⟨key, p.mem value⟩] := by
    rcases hb with h | h
    · exact List.mem_append_left _ h
    · exact List.mem_append_right _ (by simp [h])
  by_cases hm : ((p.records ++ [(⟨key, p.mem value⟩ : Buffered)]).length : Int) ≥ max
  · left
    simp only [sentNow, SP.step, SP.addMessage, hc, Bool.false_eq_true, if_false, hm, if_true, List.drop_left, List.flatMap_cons, List.flatMap_nil,
      List.append_nil]
    exact List.mem_map_of_mem hb'
  · right
    simp only [SP.step, SP.addMessage, hc, Bool.false_eq_true, if_false, hm]
    exact ⟨hb', trivial⟩

/-- A waiting message is handed over at the latest by the next flush or by closing. -/
theorem waiting_handedOver {max : Int} {b : Buffered} : ∀ (acts : List ProducerAct) (p : SP) (j : Nat), p.closed = false → b ∈ p.records →
    (∃ x, acts[j]? = some (.flush x) ∨ acts[j]? = some (.close x)) → ∃ k, k ≤ j ∧ HandedOver max acts p k b.key b.value
  | [], p, j, _, _, ⟨x, h⟩ => by simp at h
  | a :: as, p, j, hc, hb, hj => by
    have here : b.kv p.mem ∈ sentNow max a p → ∃ k, k ≤ j ∧ HandedOver max (a :: as) p k b.key b.value :=
      fun h => ⟨0, Nat.zero_le _, a, rfl, h⟩
    have later : (p.step max a).closed = false → b ∈ (p.step max a).records → j ≠ 0 →
        ∃ k, k ≤ j ∧ HandedOver max (a :: as) p k b.key b.value := by
      intro h1 h2 h3
      obtain ⟨j', rfl⟩ := Nat.exists_eq_succ_of_ne_zero h3
      obtain ⟨k, hk, hh⟩ := waiting_handedOver as (p.step max a) j' h1 h2 (by simpa using hj)
      exact ⟨k + 1, by omega, handedOver_cons hh⟩
    cases a with
    | add key value x =>
      rcases add_keeps (max := max) key value x hc (.inl hb) with h | ⟨h1, h2⟩
      · exact here h
      · exact later h2 h1 (by rintro rfl; obtain ⟨y, hy | hy⟩ := hj <;> simp at hy)
    | flush x => exact here (sentNow_flush x hb)
    | close x => exact here (sentNow_close x hb hc)
    | write i c =>
      exact later hc hb (by rintro rfl; obtain ⟨y, hy | hy⟩ := hj <;> simp at hy)

theorem run_cons_take (max : Int) (acts : List ProducerAct) (p : SP) (i : Nat) (a : ProducerAct) (h : acts[i]? = some a) :
    SP.run max (acts.take (i + 1)) p = (SP.run max (acts.take i) p).step max a := by
  induction acts generalizing p i with
  | nil => simp at h
  | cons b bs ih =>
    cases i with
    | zero => simp only [List.getElem?_cons_zero, Option.some.injEq] at h; subst h; rfl
    | succ i => exact ih (p.step max b) i (by simpa using h)

theorem handedOver_drop {max : Int} {key : Option Nat} {v : Bytes} : ∀ (acts : List ProducerAct) (p : SP) (i k : Nat),
    HandedOver max (acts.drop i) (SP.run max (acts.take i) p) k key v → HandedOver max acts p (i + k) key v
  | _, _, 0, k, h => by simpa [SP.run] using h
  | [], _, i + 1, k, h => by obtain ⟨a, ha, _⟩ := h; simp at ha
  | a :: as, p, i + 1, k, h => by
    have := handedOver_drop as (p.step max a) i k h
    rw [show i + 1 + k = (i + k) + 1 by omega]
    exact handedOver_cons this

/-- A message accepted by step `i` is handed over at the latest by the first flush or by closing after it. -/
theorem accepted_handedOver {max : Int} (acts : List ProducerAct) (p : SP) (i j : Nat) (key : Option Nat) (value : Nat) (x : Option Err)
    (ha : acts[i]? = some (.add key value x)) (hc : (SP.run max (acts.take i) p).closed = false) (hij : i < j)
    (hj : ∃ y, acts[j]? = some (.flush y) ∨ acts[j]? = some (.close y)) :
    ∃ k, i ≤ k ∧ k ≤ j ∧ HandedOver max acts p k key ((SP.run max (acts.take i) p).mem value) := by
  rcases add_keeps (max := max) key value x hc (b := ⟨key, (SP.run max (acts.take i) p).mem value⟩) (.inr rfl) with h | ⟨h1, h2⟩
  · exact ⟨i, Nat.le_refl _, by omega, _, ha, h⟩
  · rw [← run_cons_take max acts p i _ ha] at h1 h2
    obtain ⟨k, hk, hh⟩ := waiting_handedOver (acts.drop (i + 1)) _ (j - (i + 1)) h2 h1
      (by simpa only [List.getElem?_drop, show i + 1 + (j - (i + 1)) = j by omega] using hj)
    exact ⟨i + 1 + k, by omega, by omega, handedOver_drop acts p (i + 1) k hh⟩

theorem tickerRounds_after {d T : Nat} (hd : 0 < d) {took : List Nat} (hT : ∀ t ∈ took, t ≤ T) {t : Nat} : ∀ (n : Nat) (s : Nat),
    (tickerRounds d 0 0 took)[n]? = some s → t < s → ∃ (k s' : Nat), (tickerRounds d 0 0 took)[k]? = some s' ∧ t < s' ∧ s' ≤ t + max d T := by
  intro n
  induction n with
  | zero =>
    intro s hs hlt
    cases took with
    | nil => simp [tickerRounds] at hs
    | cons t0 ts =>
      have : s = d := by
        simp only [tickerRounds, nextTick, List.getElem?_cons_zero, Option.some.injEq, Nat.zero_div, Nat.lt_irrefl, if_false, Nat.zero_add, Nat.one_mul] at hs
        exact hs.symm
      exact ⟨0, s, hs, hlt, by omega⟩
  | succ n ih =>
    intro s hs hlt
    have hn : n + 1 < (tickerRounds d 0 0 took).length := (List.getElem?_eq_some_iff.1 hs).1
    have hlen := tickerRounds_length d took 0 0
    obtain ⟨s0, hs0⟩ : ∃ s0, (tickerRounds d 0 0 took)[n]? = some s0 := ⟨_, List.getElem?_eq_getElem (by omega)⟩
    by_cases h0 : t < s0
    · exact ih s0 hs0 h0
    · have hn' : n < took.length := by omega
      have htk : took[n]? = some took[n] := List.getElem?_eq_getElem hn'
      obtain ⟨_, h2⟩ := tickerRounds_gap d hd took 0 0 n s0 s _ (Nat.le_refl _) hs0 hs htk
      have := hT took[n] (List.getElem_mem hn')
      exact ⟨n + 1, s, hs, hlt, by omega⟩

/-- A run with times: never backwards. -/
def TimedInOrder (run : List (Nat × ProducerAct)) : Prop := ∀ (i j : Nat) (x y : Nat × ProducerAct), i ≤ j → run[i]? = some x → run[j]? = some y → x.1 ≤ y.1

/-- C156: take any accepted configuration, and any run with times in which the rounds of the flush timer take at most `T` each and every
round flushes, at its beginning or later.  A message accepted at time `t`, before some round, is handed to the broker at the latest `T` after
a round that begins within the flush interval (or within `T`, if that is longer); with what its slices held when it was added, for the
value, and when it is handed over, for the key. -/
theorem C156_within_the_interval (given c : ProducerConfig) (ha : createProducerConfig (.config given) = .ok c)
    (hf : given.flushIntervalMS.toInt ≤ 9223372036854) (interval : Nat) (hint : (interval : Int) = 1000000 * given.flushIntervalMS.toInt) :
    ∃ d, c.flushTicker = .ok d ∧ ∀ (took : List Nat) (T : Nat) (run : List (Nat × ProducerAct)) (p : SP),
      (∀ t ∈ took, t ≤ T) → TimedInOrder run →
      (∀ (n : Nat) (s : Nat), (tickerRounds d.toInt.toNat 0 0 took)[n]? = some s →
        ∃ (j : Nat) (s' : Nat) (y : Option Err), run[j]? = some (s', ProducerAct.flush y) ∧ s ≤ s' ∧ s' ≤ s + T) →
      ∀ (i t : Nat) (key : Option Nat) (value : Nat) (x : Option Err), run[i]? = some (t, ProducerAct.add key value x) →
        (SP.run given.messageMaxCount.toInt ((run.map Prod.snd).take i) p).closed = false →
        (∃ (n s : Nat), (tickerRounds d.toInt.toNat 0 0 took)[n]? = some s ∧ t < s) →
        ∃ (k t' : Nat) (a : ProducerAct), run[k]? = some (t', a) ∧ t ≤ t' ∧ t' ≤ t + max interval T + T ∧
          HandedOver given.messageMaxCount.toInt (run.map Prod.snd) p k key
            ((SP.run given.messageMaxCount.toInt ((run.map Prod.snd).take i) p).mem value) := by
  obtain ⟨_, _, h3, _, _, _, heq⟩ := C53_producer_partial _ given c (.inl rfl) ha
  generalize c.healerMagicByte = m at heq
  subst heq
  rw [Int64.lt_iff_toInt_lt] at h3
  obtain ⟨d, hd, hdi⟩ := millis_ticker h3 hf
  refine ⟨d, hd, fun took T run p hT hord hrun i t key value x hadd hopen ⟨n, s, hs, hts⟩ => ?_⟩
  have h3' : 0 < given.flushIntervalMS.toInt := h3
  have hdi' : d.toInt = 1000000 * given.flushIntervalMS.toInt := hdi
  have hn : d.toInt.toNat = interval := by omega
  rw [hn] at hs hrun
  obtain ⟨k, s', hk, hlt, hle⟩ := tickerRounds_after (d := interval) (by omega) hT n s hs hts
  obtain ⟨j, t', y, hj, h1, h2⟩ := hrun k s' hk
  have hij : i < j := by
    refine Nat.lt_of_not_le fun hji => ?_
    have := hord j i _ _ hji hj hadd
    simp only at this
    omega
  obtain ⟨l, hil, hlj, hh⟩ := accepted_handedOver (max := given.messageMaxCount.toInt) (run.map Prod.snd) p i j key value x
    (by simp [hadd]) hopen hij ⟨y, .inl (by simp [hj])⟩
  obtain ⟨a, hal, hm⟩ := hh
  obtain ⟨⟨tl, al⟩, hl, rfl⟩ : ∃ z, run[l]? = some z ∧ z.2 = a := by
    rw [List.getElem?_map] at hal
    cases hz : run[l]? with
    | none => rw [hz] at hal; simp at hal
    | some z => rw [hz] at hal; exact ⟨z, rfl, by simpa using hal⟩
  have hA := hord i l _ _ hil hadd hl
  have hB := hord l j _ _ hlj hl hj
  simp only at hA hB
  exact ⟨l, tl, al, hl, hA, by omega, al, hal, hm⟩

/-- C156: if no round comes any more because the producer is closed, the message is handed over at the latest by `Close`. -/
theorem C156_by_close (max : Int) (acts : List ProducerAct) (p : SP) (i j : Nat) (key : Option Nat) (value : Nat) (x y : Option Err)
    (ha : acts[i]? = some (.add key value x)) (hc : (SP.run max (acts.take i) p).closed = false) (hij : i < j)
    (hj : acts[j]? = some (.close y)) :
    ∃ k, i ≤ k ∧ k ≤ j ∧ HandedOver max acts p k key ((SP.run max (acts.take i) p).mem value) :=
  accepted_handedOver acts p i j key value x ha hc hij ⟨y, .inr hj⟩

/-- a run with the default interval of 200 ms: two messages, and the first round of the timer -/
def sampleTimedRun : List (Nat × ProducerAct) :=
  [(50000000, .add (some 0) 1 none), (120000000, .write 0 [9]), (130000000, .add none 1 none), (201000000, .flush none)]

/-- The hypotheses of `C156_within_the_interval` hold for the run, with `T` 2 ms; the first message is handed over with the key changed
meanwhile (C50). -/
example : TimedInOrder sampleTimedRun ∧
    (∀ (n : Nat) (s : Nat), (tickerRounds 200000000 0 0 [2000000])[n]? = some s →
      ∃ (j : Nat) (s' : Nat) (y : Option Err), sampleTimedRun[j]? = some (s', ProducerAct.flush y) ∧ s ≤ s' ∧ s' ≤ s + 2000000) ∧
    HandedOver 1024 (sampleTimedRun.map Prod.snd) { mem := fun i => [UInt8.ofNat i] } 3 (some 0) [1] ∧
    sentNow 1024 (.flush none) (SP.run 1024 ((sampleTimedRun.map Prod.snd).take 3) { mem := fun i => [UInt8.ofNat i] }) =
      [⟨some [9], [1]⟩, ⟨none, [1]⟩] := by
  refine ⟨?_, ?_, ⟨_, rfl, by decide⟩, by decide⟩
  · intro i j x y hij hx hy
    have hi : i < 4 := (List.getElem?_eq_some_iff.1 hx).1
    have hj : j < 4 := (List.getElem?_eq_some_iff.1 hy).1
    simp only [sampleTimedRun] at hx hy
    match i, j, hi, hj with
    | 0, 0, _, _ => cases hx; cases hy; decide
    | 0, 1, _, _ => cases hx; cases hy; decide
    | 0, 2, _, _ => cases hx; cases hy; decide
    | 0, 3, _, _ => cases hx; cases hy; decide
    | 1, 1, _, _ => cases hx; cases hy; decide
    | 1, 2, _, _ => cases hx; cases hy; decide
    | 1, 3, _, _ => cases hx; cases hy; decide
    | 2, 2, _, _ => cases hx; cases hy; decide
    | 2, 3, _, _ => cases hx; cases hy; decide
    | 3, 3, _, _ => cases hx; cases hy; decide
  · intro n s h
    match n with
    | 0 => exact ⟨3, 201000000, none, rfl, by cases h; decide, by cases h; decide⟩
    | n + 1 => simp [tickerRounds] at h

end Healer
