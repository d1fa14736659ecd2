import Verif.Props.Producer
import Verif.Model.Config

/-!
Two settings of producers: `batch.size` (C177) and `retries` (C178).
-/

namespace Healer

/-- what a message takes: its key and its value -/
def KV.size (m : KV) : Nat := (m.key.getD []).length + m.value.length

/-- what the messages of a request take -/
def sizeOfAll (ms : List KV) : Nat := (ms.map KV.size).sum

/-- a call of `AddMessage` for each of the messages, given by the addresses of key and value -/
def addsOf (answer : Option Err) (ms : List (Option Nat × Nat)) : List ProducerAct := ms.map fun m => .add m.1 m.2 answer

/-! ## C177 -/

theorem sizeOfAll_le (n : Nat) : ∀ ms : List KV, (∀ m ∈ ms, m.size ≤ n) → sizeOfAll ms ≤ ms.length * n
  | [], _ => by simp [sizeOfAll]
  | m :: ms, h => by
    have h1 := h m (.head _)
    have h2 := sizeOfAll_le n ms fun x hx => h x (.tail _ hx)
    simp only [sizeOfAll, List.map_cons, List.sum_cons, List.length_cons, Nat.add_mul, Nat.one_mul] at h2 ⊢
    omega

theorem sent_mem {l : List Produced} {ms : List KV} {r : Option Err} (h : Produced.sent ms r ∈ l) : ∀ m ∈ ms, m ∈ sentIn l := by
  induction l with
  | nil => cases h
  | cons x l ih =>
    intro m hm
    rcases List.mem_cons.1 h with h | h
    · subst h
      exact List.mem_append_left _ hm
    · have := ih h m hm
      cases x with
      | sent ms' r' => exact List.mem_append_right _ this
      | added m' r' => exact this
      | flushed r' => exact this
      | closed => exact this

theorem config_count {input : ConfigInput ProducerConfig} {c : ProducerConfig} (hc : createProducerConfig input = .ok c) : 1 ≤ c.messageMaxCount.toInt := by
  have checked : ∀ c' : ProducerConfig, c'.checked = .ok c → 1 ≤ c.messageMaxCount.toInt := by
    intro c' h
    unfold ProducerConfig.checked at h
    cases hv : c'.checkValid with
    | some e => rw [hv] at h; cases h
    | none =>
      rw [hv] at h
      cases h
      have : c'.raiseMagic.messageMaxCount = c'.messageMaxCount := by unfold ProducerConfig.raiseMagic; split <;> rfl
      rw [this]
      unfold ProducerConfig.checkValid at hv
      by_cases h1 : c'.messageMaxCount ≤ 0
      · split at hv
        · cases hv
        · cases hv
      · rw [Int64.le_iff_toInt_le] at h1
        simp at h1
        omega
  unfold createProducerConfig at hc
  cases input with
  | nil => cases hc; decide
  | map decode =>
    simp only at hc
    split at hc
    · cases hc
    · exact checked _ hc
  | config c' => exact checked _ hc
  | other => cases hc

/-- C177 holds where the largest number of messages, each as large as the largest one, stays within `batch.size`.
Missing: other configurations and messages (`C177_violated_every_config`); slices that are written to later, and ticks of the timer after `Close`. -/
theorem C177_small_partial (input : ConfigInput ProducerConfig) (c : ProducerConfig) (hc : createProducerConfig input = .ok c)
    (as : List ProducerAct) (mem : Nat → Bytes) (hw : ∀ a ∈ as, a.isWrite = false) (hq : QuietAfterClose as) (n : Nat)
    (hn : ∀ m ∈ acceptedIn (SP.run c.messageMaxCount.toInt as { mem }).log, m.size ≤ n)
    (hb : c.messageMaxCount.toInt * n ≤ c.batchSize.toInt) (ms : List KV) (r : Option Err)
    (hs : .sent ms r ∈ (SP.run c.messageMaxCount.toInt as { mem }).log) : (sizeOfAll ms : Int) ≤ c.batchSize.toInt := by
  have h1 := (C47_batches _ (config_count hc) as mem).1 ms r hs
  have h2 := (C46_once_in_order_partial c.messageMaxCount.toInt as mem hw hq).1
  have h3 := sizeOfAll_le n ms fun m hm => hn m (h2.subset (sent_mem hs m hm))
  have h4 : (ms.length : Int) * n ≤ c.messageMaxCount.toInt * n := Int.mul_le_mul_of_nonneg_right h1.2 (by omega)
  have h5 : ((ms.length * n : Nat) : Int) = (ms.length : Int) * n := by simp
  omega

example : (createProducerConfig (.config { defaultProducerConfig with bootstrapServers := "h:9092", messageMaxCount := 2, batchSize := 6 })).toOption.isSome ∧
    (SP.run 2 [.add (some 0) 1 none, .add none 1 none] { mem := fun i => List.replicate (i + 1) 7 }).log =
      [.added ⟨some [7], [7, 7]⟩ none, .sent [⟨some [7], [7, 7]⟩, ⟨none, [7, 7]⟩] none, .added ⟨none, [7, 7]⟩ none] := by decide +kernel

theorem adds_wait (max : Int) (answer : Option Err) : ∀ (ms : List (Option Nat × Nat)) (p : SP), p.closed = false → ((p.records.length + ms.length : Nat) : Int) < max →
    (SP.run max (addsOf answer ms) p).closed = false ∧ (SP.run max (addsOf answer ms) p).mem = p.mem ∧
    (SP.run max (addsOf answer ms) p).records = p.records ++ ms.map fun m => ⟨m.1, p.mem m.2⟩
  | [], p, hc, _ => by simp [addsOf, SP.run, hc]
  | m :: ms, p, hc, h => by
    simp only [List.length_cons] at h
    have hl : ¬ (((p.records ++ [(⟨m.1, p.mem m.2⟩ : Buffered)]).length : Int) ≥ max) := by simp; omega
    have e : p.step max (.add m.1 m.2 answer) =
        { p with records := p.records ++ [⟨m.1, p.mem m.2⟩], log := p.log ++ [.added ⟨m.1.map p.mem, p.mem m.2⟩ none] } := by
      simp only [SP.step, SP.addMessage, hc, Bool.false_eq_true, if_false]
      rw [if_neg hl]
    have ih := adds_wait max answer ms (p.step max (.add m.1 m.2 answer)) (by rw [e]; exact hc) (by rw [e]; simp; omega)
    rw [show addsOf answer (m :: ms) = .add m.1 m.2 answer :: addsOf answer ms from rfl, SP.run]
    refine ⟨ih.1, by rw [ih.2.1, e], ?_⟩
    rw [ih.2.2, e]
    simp

/-- what the caller's slices hold -/
def kvOf (mem : Nat → Bytes) (m : Option Nat × Nat) : KV := ⟨m.1.map mem, mem m.2⟩

theorem adds_sent (max : Int) (answer : Option Err) (ms : List (Option Nat × Nat)) (mem : Nat → Bytes) (hne : ms ≠ []) (hm : (ms.length : Int) ≤ max) :
    .sent (ms.map (kvOf mem)) answer ∈ (SP.run max (addsOf answer ms ++ [.flush answer]) { mem }).log := by
  obtain ⟨init, last, rfl⟩ : ∃ init last, ms = init ++ [last] := ⟨ms.dropLast, ms.getLast hne, (List.dropLast_concat_getLast hne).symm⟩
  simp only [List.length_append, List.length_cons, List.length_nil] at hm
  obtain ⟨h1, h2, h3⟩ := adds_wait max answer init { mem } rfl (by simp; omega)
  rw [show addsOf answer (init ++ [last]) ++ [.flush answer] = addsOf answer init ++ [.add last.1 last.2 answer, .flush answer] by simp [addsOf], SP.run_append]
  generalize SP.run max (addsOf answer init) { mem } = p at h1 h2 h3
  have e : ((p.records ++ [(⟨last.1, mem last.2⟩ : Buffered)]).map (Buffered.kv mem)) = (init ++ [last]).map (kvOf mem) := by
    rw [h3]
    simp [Buffered.kv, kvOf]
  simp only [SP.run, SP.step, SP.addMessage, h1, h2, Bool.false_eq_true, if_false]
  split
  · rw [e]
    simp only [SP.flushAll, List.length_nil, gt_iff_lt, Nat.lt_irrefl, if_false]
    simp
  · rw [SP.flushAll, if_pos (by simp)]
    rw [e]
    simp

/-- C177 fails for every accepted configuration: as many messages as `message.max.count` allows are sent together, whatever their sizes and whatever `batch.size`. -/
theorem C177_violated_every_config (input : ConfigInput ProducerConfig) (c : ProducerConfig) (_hc : createProducerConfig input = .ok c)
    (ms : List (Option Nat × Nat)) (mem : Nat → Bytes) (answer : Option Err) (h2 : 2 ≤ ms.length) (hm : (ms.length : Int) ≤ c.messageMaxCount.toInt)
    (hs : c.batchSize.toInt < sizeOfAll (ms.map (kvOf mem))) :
    ∃ batch, .sent batch answer ∈ (SP.run c.messageMaxCount.toInt (addsOf answer ms ++ [.flush answer]) { mem }).log ∧
      2 ≤ batch.length ∧ c.batchSize.toInt < sizeOfAll batch :=
  ⟨_, adds_sent _ answer ms mem (by rintro rfl; simp at h2) hm, by simpa using h2, hs⟩

/-- C177 fails for every accepted configuration that allows two messages in a request, also with messages that would fit one by one: two of exactly `batch.size` bytes
are sent together. -/
theorem C177_violated_every_pair (input : ConfigInput ProducerConfig) (c : ProducerConfig) (_hc : createProducerConfig input = .ok c)
    (h2 : 2 ≤ c.messageMaxCount.toInt) (hb : 0 < c.batchSize.toInt) (answer : Option Err) :
    ∃ batch, .sent batch answer ∈ (SP.run c.messageMaxCount.toInt (addsOf answer [(none, 0), (none, 0)] ++ [.flush answer])
        { mem := fun _ => List.replicate c.batchSize.toInt.toNat 0 }).log ∧
      (∀ m ∈ batch, (m.size : Int) ≤ c.batchSize.toInt) ∧ 2 ≤ batch.length ∧ c.batchSize.toInt < sizeOfAll batch := by
  have hn : ((c.batchSize.toInt.toNat : Nat) : Int) = c.batchSize.toInt := by omega
  refine ⟨_, adds_sent _ answer [(none, 0), (none, 0)] _ (by simp) (by simpa using h2), ?_, by simp, ?_⟩
  · intro m hm
    have hm : m = kvOf (fun _ => List.replicate c.batchSize.toInt.toNat 0) (none, 0) := by simpa only [List.map_cons, List.map_nil, List.mem_cons, List.not_mem_nil, or_false, or_self] using hm
    subst hm
    simp only [kvOf, KV.size, Option.map_none, Option.getD_none, List.length_nil, List.length_replicate]
    omega
  · simp only [sizeOfAll, KV.size, kvOf, List.map_cons, List.map_nil, List.sum_cons, List.sum_nil, Option.map_none, Option.getD_none, List.length_nil, List.length_replicate]
    omega

example : (createProducerConfig (.config { defaultProducerConfig with bootstrapServers := "h:9092", batchSize := 1 })).toOption.map
    (fun c => (c.messageMaxCount.toInt, c.batchSize.toInt)) = some (1024, 1) := by decide +kernel

/-! ## C178 -/

/-- what the broker's answer makes of the produce request of a step, if one is sent -/
def ProducerAct.answer : ProducerAct → Option Err
  | .add _ _ a => a
  | .flush a => a
  | .close a => a
  | .write .. => none

/-- C178 holds for `retries` 0 while no tick of the timer comes after `Close`: nothing is sent more often than it was accepted.
Missing: other values (`C178_violated_every_failure`), and a tick that was waiting while `Close` ran (`C46_violated_always`). -/
theorem C178_none_partial (input : ConfigInput ProducerConfig) (c : ProducerConfig) (_hc : createProducerConfig input = .ok c) (_hr : c.retries = 0)
    (as : List ProducerAct) (mem : Nat → Bytes) (hw : ∀ a ∈ as, a.isWrite = false) (hq : QuietAfterClose as) (m : KV) :
    (sentIn (SP.run c.messageMaxCount.toInt as { mem }).log).count m ≤ (acceptedIn (SP.run c.messageMaxCount.toInt as { mem }).log).count m :=
  (C46_once_in_order_partial _ as mem hw hq).1.sublist.count_le m

theorem sent_answer (max : Int) : ∀ (as : List ProducerAct) (p : SP), (∀ a ∈ as, a.isWrite = false → a.answer ≠ none) →
    (∀ ms r, Produced.sent ms r ∈ p.log → r ≠ none) → ∀ ms r, Produced.sent ms r ∈ (SP.run max as p).log → r ≠ none
  | [], _, _, hp => hp
  | a :: as, p, ha, hp => by
    refine sent_answer max as (p.step max a) (fun b hb => ha b (.tail _ hb)) ?_
    have h1 := ha a (.head _)
    intro ms r h
    cases a with
    | add k v ans =>
      simp only [SP.step, SP.addMessage] at h
      repeat' split at h
      all_goals simp at h
      · exact hp ms r h
      · rcases h with h | ⟨_, h⟩
        · exact hp ms r h
        · rw [h]; exact h1 rfl
      · exact hp ms r h
    | flush ans =>
      simp only [SP.step, SP.flushAll] at h
      split at h <;> simp at h
      · rcases h with h | ⟨_, h⟩
        · exact hp ms r h
        · rw [h]; exact h1 rfl
      · exact hp ms r h
    | close ans =>
      simp only [SP.step, SP.close] at h
      repeat' split at h
      all_goals simp at h
      · exact hp ms r h
      · rcases h with h | ⟨_, h⟩
        · exact hp ms r h
        · rw [h]; exact h1 rfl
      · exact hp ms r h
    | write i x => exact hp ms r h

/-- C178 fails for every accepted configuration with retries, and every run in which no request succeeds: each message is sent exactly once. -/
theorem C178_violated_every_failure (input : ConfigInput ProducerConfig) (c : ProducerConfig) (_hc : createProducerConfig input = .ok c) (_hr : 0 < c.retries)
    (pre : List ProducerAct) (last : ProducerAct) (mem : Nat → Bytes) (hw : ∀ a ∈ pre ++ [last], a.isWrite = false) (hq : QuietAfterClose (pre ++ [last]))
    (hl : last.isFlush = true ∨ last.isClose = true) (hf : ∀ a ∈ pre ++ [last], a.answer ≠ none) :
    (∀ ms r, .sent ms r ∈ (SP.run c.messageMaxCount.toInt (pre ++ [last]) { mem }).log → r ≠ none) ∧
    ∀ m, (sentIn (SP.run c.messageMaxCount.toInt (pre ++ [last]) { mem }).log).count m =
      (acceptedIn (SP.run c.messageMaxCount.toInt (pre ++ [last]) { mem }).log).count m := by
  refine ⟨sent_answer _ _ _ (fun a ha _ => hf a ha) (by simp), fun m => ?_⟩
  rw [(C46_once_in_order_partial _ (pre ++ [last]) mem hw hq).2 pre last rfl hl]

example : (createProducerConfig (.config { defaultProducerConfig with bootstrapServers := "h:9092", retries := 3 })).toOption.map
      (fun c => (c.messageMaxCount.toInt, c.retries)) = some (1024, 3) ∧
    (SP.run 1024 [.add none 1 (some .timeout), .close (some .timeout)] { mem := memo }).log =
      [.added ⟨none, [1]⟩ none, .sent [⟨none, [1]⟩] (some .timeout), .closed] := by decide +kernel

end Healer
