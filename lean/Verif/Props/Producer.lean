import Verif.Model.Producer
import Verif.Props.Record
import Verif.Props.Request3
import Verif.Props.Fetch

/-!
# C12, C46 – C50: the producer of one partition
-/

namespace Healer

/-! ## What the user relies on, in terms of calls and requests -/

/-- the messages of the calls of `AddMessage` which returned no error, as they were at the time of the call -/
def acceptedIn : List Produced → List KV
  | [] => []
  | .added m none :: l => m :: acceptedIn l
  | _ :: l => acceptedIn l

/-- the messages in the produce requests -/
def sentIn : List Produced → List KV
  | [] => []
  | .sent ms _ :: l => ms ++ sentIn l
  | _ :: l => sentIn l

theorem acceptedIn_append : ∀ l₁ l₂ : List Produced, acceptedIn (l₁ ++ l₂) = acceptedIn l₁ ++ acceptedIn l₂
  | [], _ => rfl
  | .added m none :: l, l₂ => by simp [acceptedIn, acceptedIn_append l l₂]
  | .added m (some e) :: l, l₂ => by simp [acceptedIn, acceptedIn_append l l₂]
  | .sent ms r :: l, l₂ => by simp [acceptedIn, acceptedIn_append l l₂]
  | .flushed r :: l, l₂ => by simp [acceptedIn, acceptedIn_append l l₂]
  | .closed :: l, l₂ => by simp [acceptedIn, acceptedIn_append l l₂]

theorem sentIn_append : ∀ l₁ l₂ : List Produced, sentIn (l₁ ++ l₂) = sentIn l₁ ++ sentIn l₂
  | [], _ => rfl
  | .added m r :: l, l₂ => by simp [sentIn, sentIn_append l l₂]
  | .sent ms r :: l, l₂ => by simp [sentIn, sentIn_append l l₂]
  | .flushed r :: l, l₂ => by simp [sentIn, sentIn_append l l₂]
  | .closed :: l, l₂ => by simp [sentIn, sentIn_append l l₂]

def ProducerAct.isFlush : ProducerAct → Bool
  | .flush _ => true
  | _ => false

def ProducerAct.isClose : ProducerAct → Bool
  | .close _ => true
  | _ => false

def ProducerAct.isWrite : ProducerAct → Bool
  | .write .. => true
  | _ => false

/-- no call of `Flush`, and no tick of the timer, after `Close` -/
def QuietAfterClose (as : List ProducerAct) : Prop :=
  ∀ pre a post, as = pre ++ .close a :: post → ∀ b ∈ post, b.isFlush = false

theorem SP.run_append (max : Int) : ∀ (as bs : List ProducerAct) (p : SP), SP.run max (as ++ bs) p = SP.run max bs (SP.run max as p)
  | [], _, _ => rfl
  | _ :: as, bs, p => SP.run_append max as bs _

/-! ## C46, C50 -/

/-- what holds between the log and the buffer -/
structure SPInv (s : SP) : Prop where
  values : s.closed = false →
    (acceptedIn s.log).map KV.value = (sentIn s.log).map KV.value ++ s.records.map Buffered.value
  allSent : s.closed = true → (acceptedIn s.log).map KV.value = (sentIn s.log).map KV.value

theorem kv_value (mem : Nat → Bytes) (b : Buffered) : (b.kv mem).value = b.value := rfl

theorem SPInv.step {s : SP} (hi : SPInv s) (max : Int) (a : ProducerAct) (hq : s.closed = true → a.isFlush = false) :
    SPInv (s.step max a) := by
  obtain ⟨h1, h2⟩ := hi
  cases a with
  | add k v ans =>
    simp only [SP.step, SP.addMessage]
    cases hc : s.closed with
    | true =>
      simp only [if_true]
      constructor
      · intro h; simp [hc] at h
      · intro _; simp [acceptedIn_append, sentIn_append, acceptedIn, sentIn, h2 hc]
    | false =>
      simp only [Bool.false_eq_true, if_false]
      have h := h1 hc
      split
      · constructor
        · intro _
          simp [acceptedIn_append, sentIn_append, acceptedIn, sentIn, h, Buffered.kv, Function.comp_def]
        · intro hh; simp [hc] at hh
      · constructor
        · intro _
          simp [acceptedIn_append, sentIn_append, acceptedIn, sentIn, h]
        · intro hh; simp [hc] at hh
  | flush ans =>
    have hc : s.closed = false := by
      cases hc : s.closed with
      | false => rfl
      | true => have := hq hc; simp [ProducerAct.isFlush] at this
    have h := h1 hc
    simp only [SP.step, SP.flushAll]
    split
    · constructor
      · intro _
        simp [acceptedIn_append, sentIn_append, acceptedIn, sentIn, h, Buffered.kv, Function.comp_def]
      · intro hh; simp [hc] at hh
    · constructor
      · intro _
        simp [acceptedIn_append, sentIn_append, acceptedIn, sentIn, h]
      · intro hh; simp [hc] at hh
  | close ans =>
    simp only [SP.step, SP.close]
    cases hc : s.closed with
    | true =>
      simp only [if_true]
      constructor
      · intro h; simp [hc] at h
      · intro _; simp [acceptedIn_append, sentIn_append, acceptedIn, sentIn, h2 hc]
    | false =>
      simp only [Bool.false_eq_true, if_false]
      have h := h1 hc
      split
      · constructor
        · intro hh; simp at hh
        · intro _
          simp [acceptedIn_append, sentIn_append, acceptedIn, sentIn, h, Buffered.kv, Function.comp_def]
      · rename_i hn
        have hr : s.records = [] := List.length_eq_zero_iff.1 (by omega)
        constructor
        · intro hh; simp at hh
        · intro _
          simp [acceptedIn_append, sentIn_append, acceptedIn, sentIn, h, hr]
  | write i c =>
    simp only [SP.step]
    exact ⟨h1, h2⟩

/-- with keys, as long as the caller's slices are left alone -/
structure SPKeyInv (s : SP) : Prop where
  waiting : s.closed = false → acceptedIn s.log = sentIn s.log ++ s.records.map (Buffered.kv s.mem)
  allSent : s.closed = true → acceptedIn s.log = sentIn s.log

theorem SPKeyInv.step {s : SP} (hi : SPKeyInv s) (max : Int) (a : ProducerAct) (hw : a.isWrite = false)
    (hq : s.closed = true → a.isFlush = false) : SPKeyInv (s.step max a) := by
  obtain ⟨h1, h2⟩ := hi
  cases a with
  | add k v ans =>
    simp only [SP.step, SP.addMessage]
    cases hc : s.closed with
    | true =>
      simp only [if_true]
      constructor
      · intro h; simp [hc] at h
      · intro _; simp [acceptedIn_append, sentIn_append, acceptedIn, sentIn, h2 hc]
    | false =>
      simp only [Bool.false_eq_true, if_false]
      have h := h1 hc
      split
      · constructor
        · intro _
          simp [acceptedIn_append, sentIn_append, acceptedIn, sentIn, h, Buffered.kv]
        · intro hh; simp [hc] at hh
      · constructor
        · intro _
          simp [acceptedIn_append, sentIn_append, acceptedIn, sentIn, h, Buffered.kv]
        · intro hh; simp [hc] at hh
  | flush ans =>
    have hc : s.closed = false := by
      cases hc : s.closed with
      | false => rfl
      | true => have := hq hc; simp [ProducerAct.isFlush] at this
    have h := h1 hc
    simp only [SP.step, SP.flushAll]
    split
    · constructor
      · intro _
        simp [acceptedIn_append, sentIn_append, acceptedIn, sentIn, h]
      · intro hh; simp [hc] at hh
    · constructor
      · intro _
        simp [acceptedIn_append, sentIn_append, acceptedIn, sentIn, h]
      · intro hh; simp [hc] at hh
  | close ans =>
    simp only [SP.step, SP.close]
    cases hc : s.closed with
    | true =>
      simp only [if_true]
      constructor
      · intro h; simp [hc] at h
      · intro _; simp [acceptedIn_append, sentIn_append, acceptedIn, sentIn, h2 hc]
    | false =>
      simp only [Bool.false_eq_true, if_false]
      have h := h1 hc
      split
      · constructor
        · intro hh; simp at hh
        · intro _
          simp [acceptedIn_append, sentIn_append, acceptedIn, sentIn, h]
      · rename_i hn
        have hr : s.records = [] := List.length_eq_zero_iff.1 (by omega)
        constructor
        · intro hh; simp at hh
        · intro _
          simp [acceptedIn_append, sentIn_append, acceptedIn, sentIn, h, hr]
  | write i c => simp [ProducerAct.isWrite] at hw

/-- closed is what `Close` sets -/
theorem SP.step_closed (max : Int) (a : ProducerAct) (s : SP) : (s.step max a).closed = (s.closed || a.isClose) := by
  cases a with
  | add k v ans =>
    simp only [SP.step, SP.addMessage, ProducerAct.isClose, Bool.or_false]
    repeat' split
    all_goals rfl
  | flush ans =>
    simp only [SP.step, SP.flushAll, ProducerAct.isClose, Bool.or_false]
    repeat' split
    all_goals rfl
  | close ans =>
    simp only [SP.step, SP.close, ProducerAct.isClose, Bool.or_true]
    cases hc : s.closed with
    | true => simp [hc]
    | false =>
      simp only [Bool.false_eq_true, if_false]
      split <;> rfl
  | write i c => simp [SP.step, ProducerAct.isClose]

theorem SP.run_closed (max : Int) : ∀ (as : List ProducerAct) (s : SP), (SP.run max as s).closed = (s.closed || as.any ProducerAct.isClose)
  | [], s => by simp [SP.run]
  | a :: as, s => by rw [SP.run, SP.run_closed max as, SP.step_closed, List.any_cons, Bool.or_assoc]

/-- invariants along runs that are quiet after `Close` -/
theorem SP.quiet_induction {P : SP → Prop} {ok : ProducerAct → Prop} (max : Int)
    (step : ∀ s a, ok a → (s.closed = true → a.isFlush = false) → P s → P (s.step max a)) :
    ∀ (as : List ProducerAct) (s : SP), (∀ a ∈ as, ok a) → QuietAfterClose as → (s.closed = true → ∀ a ∈ as, a.isFlush = false) →
      P s → P (SP.run max as s)
  | [], _, _, _, _, h => h
  | a :: as, s, hok, hq, hc, h => by
    rw [SP.run]
    refine SP.quiet_induction max step as _ (fun b hb => hok b (List.mem_cons_of_mem _ hb)) ?_ ?_
      (step s a (hok a (List.mem_cons_self ..)) (fun hs => hc hs a (List.mem_cons_self ..)) h)
    · intro pre b post he
      exact hq (a :: pre) b post (by rw [he]; rfl)
    · intro hs b hb
      rw [SP.step_closed, Bool.or_eq_true] at hs
      rcases hs with hs | hs
      · exact hc hs b (List.mem_cons_of_mem _ hb)
      · cases a with
        | close x => exact hq [] x as rfl b hb
        | _ => simp [ProducerAct.isClose] at hs

/-- C46: what is sent is the accepted messages, in order, none twice and none left out; after `Flush` or `Close` all
of them. (For callers who leave their slices alone, see C50.)
Missing for the full statement: nothing may call `Flush` after `Close`, not even the timer (`C46_violated`). -/
theorem C46_once_in_order_partial (max : Int) (as : List ProducerAct) (mem : Nat → Bytes) (hw : ∀ a ∈ as, a.isWrite = false)
    (hq : QuietAfterClose as) :
    (sentIn (SP.run max as { mem }).log <+: acceptedIn (SP.run max as { mem }).log) ∧
    ∀ pre a, as = pre ++ [a] → a.isFlush = true ∨ a.isClose = true →
      sentIn (SP.run max as { mem }).log = acceptedIn (SP.run max as { mem }).log := by
  have hinv : ∀ bs : List ProducerAct, (∀ a ∈ bs, a.isWrite = false) → QuietAfterClose bs → SPKeyInv (SP.run max bs { mem }) :=
    fun bs h1 h2 => SP.quiet_induction (P := SPKeyInv) (ok := fun a => a.isWrite = false) max
      (fun s a ho hq h => h.step max a ho hq) bs { mem } h1 h2 (fun h => by cases h)
      ⟨fun _ => rfl, fun h => by cases h⟩
  obtain ⟨h1, h2⟩ := hinv as hw hq
  constructor
  · cases hc : (SP.run max as { mem }).closed with
    | false => exact ⟨_, (h1 hc).symm⟩
    | true => exact ⟨[], by rw [List.append_nil, h2 hc]⟩
  · intro pre a he ha
    cases hc : (SP.run max as { mem }).closed with
    | true => exact (h2 hc).symm
    | false =>
      have hr : (SP.run max as { mem }).records = [] := by
        rw [he, SP.run_append] at hc ⊢
        rcases ha with ha | ha
        · cases a with
          | flush ans =>
            simp only [SP.run, SP.step, SP.flushAll]
            split
            · rfl
            · rename_i hn
              exact List.length_eq_zero_iff.1 (by simpa using hn)
          | _ => simp [ProducerAct.isFlush] at ha
        · cases a with
          | close ans =>
            rw [SP.run_closed] at hc
            simp [ProducerAct.isClose] at hc
          | _ => simp [ProducerAct.isClose] at ha
      rw [h1 hc, hr, List.map_nil, List.append_nil]

/-- two messages; the first batch is full with them, then one more, and `Close` -/
def memo : Nat → Bytes := fun i => [UInt8.ofNat i]

example : (SP.run 2 [.add (some 1) 2 none, .add none 3 none, .add none 4 none, .close none] { mem := memo }).log =
    [.added ⟨some [1], [2]⟩ none, .sent [⟨some [1], [2]⟩, ⟨none, [3]⟩] none, .added ⟨none, [3]⟩ none, .added ⟨none, [4]⟩ none,
      .sent [⟨none, [4]⟩] none, .closed] := by decide +kernel

/-- C46 does not hold if the timer's `Flush` was waiting for the mutex while `Close` held it: the last batch is sent
twice. -/
theorem C46_violated : (SP.run 2 [.add none 4 none, .close none, .flush none] { mem := memo }).log =
    [.added ⟨none, [4]⟩ none, .sent [⟨none, [4]⟩] none, .closed, .sent [⟨none, [4]⟩] none, .flushed none] := by decide +kernel

/-- C50, for values: whatever the caller writes to the slices, the values sent are those at the time of the call.
Missing for the full statement: the keys (`C50_violated_key`). -/
theorem C50_values_partial (max : Int) (as : List ProducerAct) (mem : Nat → Bytes) (hq : QuietAfterClose as) :
    (sentIn (SP.run max as { mem }).log).map KV.value <+: (acceptedIn (SP.run max as { mem }).log).map KV.value := by
  have hinv : SPInv (SP.run max as { mem }) :=
    SP.quiet_induction (P := SPInv) (ok := fun _ => True) max (fun s a _ hq h => h.step max a hq) as { mem }
      (fun _ _ => trivial) hq (fun h => by cases h) ⟨fun _ => rfl, fun h => by cases h⟩
  cases hc : (SP.run max as { mem }).closed with
  | false => exact ⟨_, (hinv.values hc).symm⟩
  | true => exact ⟨[], by rw [List.append_nil, hinv.allSent hc]⟩

example : (SP.run 2 [.add none 4 none, .write 4 [9], .flush none] { mem := memo }).log =
    [.added ⟨none, [4]⟩ none, .sent [⟨none, [4]⟩] none, .flushed none] := by decide +kernel

/-- C50 does not hold for keys: a caller who uses the slice of the key again changes the message that is waiting. -/
theorem C50_violated_key : (SP.run 3 [.add (some 1) 4 none, .write 1 [9], .add (some 1) 5 none, .flush none] { mem := memo }).log =
    [.added ⟨some [1], [4]⟩ none, .added ⟨some [9], [5]⟩ none, .sent [⟨some [9], [4]⟩, ⟨some [9], [5]⟩] none, .flushed none] := by
  decide +kernel

/-! ## C47 -/

structure SPSizeInv (max : Int) (s : SP) : Prop where
  waiting : (s.records.length : Int) < max
  batches : ∀ ms r, .sent ms r ∈ s.log → 1 ≤ ms.length ∧ (ms.length : Int) ≤ max
  left : (acceptedIn s.log).length ≤ (sentIn s.log).length + s.records.length

theorem SPSizeInv.step {max : Int} {s : SP} (hm : 1 ≤ max) (hi : SPSizeInv max s) (a : ProducerAct) : SPSizeInv max (s.step max a) := by
  obtain ⟨h1, h2, h3⟩ := hi
  cases a with
  | add k v ans =>
    simp only [SP.step, SP.addMessage]
    repeat' split
    · refine ⟨h1, ?_, ?_⟩
      · intro ms r h
        simp only [List.mem_append, List.mem_singleton, reduceCtorEq, or_false] at h
        exact h2 ms r h
      · simp [acceptedIn_append, sentIn_append, acceptedIn, sentIn]; exact h3
    · rename_i hge
      refine ⟨by simp; omega, ?_, ?_⟩
      · intro ms r h
        simp only [List.mem_append, List.mem_cons, Produced.sent.injEq, reduceCtorEq, List.not_mem_nil, or_false] at h
        rcases h with h | ⟨rfl, rfl⟩
        · exact h2 ms r h
        · simp only [List.length_map, List.length_append, List.length_singleton]
          omega
      · simp [acceptedIn_append, sentIn_append, acceptedIn, sentIn]; omega
    · rename_i hge
      refine ⟨by simpa using hge, ?_, ?_⟩
      · intro ms r h
        simp only [List.mem_append, List.mem_singleton, reduceCtorEq, or_false] at h
        exact h2 ms r h
      · simp [acceptedIn_append, sentIn_append, acceptedIn, sentIn]; omega
  | flush ans =>
    simp only [SP.step, SP.flushAll]
    split
    · refine ⟨by simp; omega, ?_, ?_⟩
      · intro ms r h
        simp only [List.mem_append, List.mem_cons, Produced.sent.injEq, reduceCtorEq, List.not_mem_nil, or_false] at h
        rcases h with h | ⟨rfl, rfl⟩
        · exact h2 ms r h
        · simp only [List.length_map]
          omega
      · simp [acceptedIn_append, sentIn_append, acceptedIn, sentIn]; omega
    · refine ⟨h1, ?_, ?_⟩
      · intro ms r h
        simp only [List.mem_append, List.mem_singleton, reduceCtorEq, or_false] at h
        exact h2 ms r h
      · simp [acceptedIn_append, sentIn_append, acceptedIn, sentIn]; exact h3
  | close ans =>
    simp only [SP.step, SP.close]
    repeat' split
    · refine ⟨h1, ?_, ?_⟩
      · intro ms r h
        simp only [List.mem_append, List.mem_singleton, reduceCtorEq, or_false] at h
        exact h2 ms r h
      · simp [acceptedIn_append, sentIn_append, acceptedIn, sentIn]; exact h3
    · refine ⟨h1, ?_, ?_⟩
      · intro ms r h
        simp only [List.mem_append, List.mem_cons, Produced.sent.injEq, reduceCtorEq, List.not_mem_nil, or_false] at h
        rcases h with h | ⟨rfl, rfl⟩
        · exact h2 ms r h
        · simp only [List.length_map]
          omega
      · simp [acceptedIn_append, sentIn_append, acceptedIn, sentIn]; omega
    · refine ⟨h1, ?_, ?_⟩
      · intro ms r h
        simp only [List.mem_append, List.mem_singleton, reduceCtorEq, or_false] at h
        exact h2 ms r h
      · simp [acceptedIn_append, sentIn_append, acceptedIn, sentIn]; exact h3
  | write i c => exact ⟨h1, h2, h3⟩

theorem SPSizeInv.run {max : Int} (hm : 1 ≤ max) : ∀ (as : List ProducerAct) (s : SP), SPSizeInv max s → SPSizeInv max (SP.run max as s)
  | [], _, h => h
  | a :: as, _, h => SPSizeInv.run hm as _ (h.step hm a)

/-- C47: no batch is empty, none is larger than the maximum, and fewer messages than the maximum are waiting at any
time. -/
theorem C47_batches (max : Int) (hm : 1 ≤ max) (as : List ProducerAct) (mem : Nat → Bytes) :
    (∀ ms r, .sent ms r ∈ (SP.run max as { mem }).log → 1 ≤ ms.length ∧ (ms.length : Int) ≤ max) ∧
    ((acceptedIn (SP.run max as { mem }).log).length : Int) < (sentIn (SP.run max as { mem }).log).length + max := by
  have h := SPSizeInv.run hm as { mem } ⟨by simp; omega, by simp, by simp [acceptedIn, sentIn]⟩
  obtain ⟨h1, h2, h3⟩ := h
  exact ⟨h2, by omega⟩

/-! ## C48 -/

/-- what the broker's answer was, for calls other than `Flush` -/
def ProducerAct.fine : ProducerAct → Prop
  | .add _ _ a => a = none
  | .close a => a = none
  | _ => True

/-- Every failed request is followed by the return of a `Flush` with its error. -/
def FailuresReported (log : List Produced) : Prop :=
  ∀ pre ms e post, log = pre ++ .sent ms (some e) :: post → ∃ post', post = .flushed (some e) :: post'

theorem FailuresReported.append {l t : List Produced} (h1 : FailuresReported l) (h2 : FailuresReported t) :
    FailuresReported (l ++ t) := by
  intro pre ms e post he
  rcases List.append_eq_append_iff.1 he with ⟨a, h, h'⟩ | ⟨a, h, h'⟩
  · exact h2 a ms e post h'
  · cases a with
    | nil =>
      simp only [List.append_nil, List.nil_append] at h h'
      exact h2 [] ms e post h'.symm
    | cons x a =>
      simp only [List.cons_append, List.cons.injEq] at h'
      obtain ⟨rfl, rfl⟩ := h'
      obtain ⟨p', hp⟩ := h1 pre ms e a h
      exact ⟨p' ++ t, by rw [hp]; rfl⟩

theorem reported_one {x : Produced} (h : ∀ ms e, x ≠ .sent ms (some e)) : FailuresReported [x] := by
  intro pre ms e post he
  cases pre with
  | nil =>
    simp only [List.nil_append, List.cons.injEq] at he
    exact absurd he.1 (h ms e)
  | cons y pre => simp at he

theorem reported_two {x y : Produced} (h : ∀ ms e, x ≠ .sent ms (some e)) (h' : ∀ ms e, y ≠ .sent ms (some e)) :
    FailuresReported [x, y] := (reported_one h).append (reported_one h')

theorem reported_flush (ms : List KV) (a : Option Err) : FailuresReported [.sent ms a, .flushed a] := by
  intro pre ms' e post he
  cases pre with
  | nil =>
    simp only [List.nil_append, List.cons.injEq, Produced.sent.injEq] at he
    obtain ⟨⟨rfl, rfl⟩, rfl⟩ := he
    exact ⟨[], rfl⟩
  | cons y pre =>
    cases pre with
    | nil => simp at he
    | cons z pre => simp at he

theorem reported_step (max : Int) (s : SP) (a : ProducerAct) (ha : a.fine) (h : FailuresReported s.log) :
    FailuresReported (s.step max a).log := by
  cases a with
  | add k v ans =>
    cases ha
    simp only [SP.step, SP.addMessage]
    repeat' split
    · exact h.append (reported_one (by simp))
    · exact h.append (reported_two (by simp) (by simp))
    · exact h.append (reported_one (by simp))
  | flush ans =>
    simp only [SP.step, SP.flushAll]
    split
    · exact h.append (reported_flush _ _)
    · exact h.append (reported_one (by simp))
  | close ans =>
    cases ha
    simp only [SP.step, SP.close]
    repeat' split
    · exact h.append (reported_one (by simp))
    · exact h.append (reported_two (by simp) (by simp))
    · exact h.append (reported_one (by simp))
  | write i c => exact h

/-- C48, for failures in calls of `Flush`: every failed request is reported by the `Flush` that sent it. (By C46 every
accepted message is in a request or waiting.)
Missing for the full statement: failures in `AddMessage` and `Close` (`C48_violated_add`, `C48_violated_close`). -/
theorem C48_flush_reports_partial (max : Int) (as : List ProducerAct) (mem : Nat → Bytes) (ha : ∀ a ∈ as, a.fine) :
    FailuresReported (SP.run max as { mem }).log := by
  have : ∀ (as : List ProducerAct) (s : SP), (∀ a ∈ as, a.fine) → FailuresReported s.log → FailuresReported (SP.run max as s).log := by
    intro as
    induction as with
    | nil => exact fun _ _ h => h
    | cons a as ih =>
      intro s h1 h2
      exact ih _ (fun b hb => h1 b (List.mem_cons_of_mem _ hb)) (reported_step max s a (h1 a (List.mem_cons_self ..)) h2)
  exact this as _ ha (fun pre ms e post h => by simp at h)

example : (SP.run 5 [.add none 4 none, .flush (some .timeout), .flush none] { mem := memo }).log =
    [.added ⟨none, [4]⟩ none, .sent [⟨none, [4]⟩] (some .timeout), .flushed (some .timeout), .flushed none] := by decide +kernel

/-- C48 does not hold: the call that fills the batch returns no error when the request fails, and the messages are
gone. -/
theorem C48_violated_add : (SP.run 2 [.add none 4 none, .add none 5 (some .timeout), .flush none, .close none] { mem := memo }).log =
    [.added ⟨none, [4]⟩ none, .sent [⟨none, [4]⟩, ⟨none, [5]⟩] (some .timeout), .added ⟨none, [5]⟩ none, .flushed none, .closed] := by
  decide +kernel

/-- C48 does not hold: `Close` does not tell that its request failed. -/
theorem C48_violated_close : (SP.run 2 [.add none 4 none, .close (some .timeout)] { mem := memo }).log =
    [.added ⟨none, [4]⟩ none, .sent [⟨none, [4]⟩] (some .timeout), .closed] := by decide +kernel

/-! ## C49 -/

theorem closed_step (max : Int) (a : ProducerAct) (s : SP) (hc : s.closed = true) :
    ∃ t, (s.step max a).log = s.log ++ t ∧ (∀ m r, .added m r ∈ t → r = some .producerClosed) ∧
      (a.isFlush = false → ∀ ms r, .sent ms r ∉ t) := by
  cases a with
  | add k v ans =>
    simp only [SP.step, SP.addMessage, hc, if_true]
    exact ⟨_, rfl, by simp, by simp⟩
  | flush ans =>
    simp only [SP.step, SP.flushAll]
    split
    · exact ⟨_, rfl, by simp, by simp [ProducerAct.isFlush]⟩
    · exact ⟨_, rfl, by simp, by simp [ProducerAct.isFlush]⟩
  | close ans =>
    simp only [SP.step, SP.close, hc, if_true]
    exact ⟨_, rfl, by simp, by simp⟩
  | write i c => exact ⟨[], by simp [SP.step], by simp, by simp⟩

/-- C49: after `Close` every call of `AddMessage` is refused, and calls other than `Flush` send nothing.
Missing for the full statement: `Flush`, also by the timer, sends the last batch once more (`C49_violated_flush`). -/
theorem C49_refused_partial (max : Int) (as bs : List ProducerAct) (ans : Option Err) (mem : Nat → Bytes) :
    ∃ t, (SP.run max (as ++ .close ans :: bs) { mem }).log = (SP.run max (as ++ [.close ans]) { mem }).log ++ t ∧
      (∀ m r, .added m r ∈ t → r = some .producerClosed) ∧ ((∀ b ∈ bs, b.isFlush = false) → ∀ ms r, .sent ms r ∉ t) := by
  have key : ∀ (bs : List ProducerAct) (s : SP), s.closed = true → ∃ t, (SP.run max bs s).log = s.log ++ t ∧
      (∀ m r, .added m r ∈ t → r = some .producerClosed) ∧ ((∀ b ∈ bs, b.isFlush = false) → ∀ ms r, .sent ms r ∉ t) := by
    intro bs
    induction bs with
    | nil => exact fun s _ => ⟨[], by simp [SP.run], by simp, by simp⟩
    | cons b bs ih =>
      intro s hc
      obtain ⟨t1, e1, f1, g1⟩ := closed_step max b s hc
      obtain ⟨t2, e2, f2, g2⟩ := ih (s.step max b) (by rw [SP.step_closed, hc]; rfl)
      refine ⟨t1 ++ t2, by rw [SP.run, e2, e1, List.append_assoc], ?_, ?_⟩
      · intro m r h
        rcases List.mem_append.1 h with h | h
        · exact f1 m r h
        · exact f2 m r h
      · intro hb ms r h
        rcases List.mem_append.1 h with h | h
        · exact g1 (hb b (List.mem_cons_self ..)) ms r h
        · exact g2 (fun c hc => hb c (List.mem_cons_of_mem _ hc)) ms r h
  have hc : (SP.run max (as ++ [.close ans]) { mem }).closed = true := by
    rw [SP.run_closed]; simp [ProducerAct.isClose]
  obtain ⟨t, h⟩ := key bs _ hc
  refine ⟨t, ?_⟩
  rw [← SP.run_append, List.append_assoc] at h
  exact h

example : (SP.run 2 [.add none 4 none, .close none, .add none 5 none, .close none] { mem := memo }).log =
    [.added ⟨none, [4]⟩ none, .sent [⟨none, [4]⟩] none, .closed, .added ⟨none, [5]⟩ (some .producerClosed), .closed] := by decide +kernel

/-- C49 does not hold: `Flush` after `Close` sends the last batch again. -/
theorem C49_violated_flush : .sent [⟨none, [4]⟩] none ∈
    (SP.run 2 [.flush none] (SP.run 2 [.add none 4 none, .close none] { mem := memo, log := [] })).log.drop 3 := by decide +kernel

/-! ## C12 -/

/-- the offsets of the messages of a batch, as every reader of the format computes them -/
def RecordBatch.offsets (b : RecordBatch) : List Int := b.records.map fun r => b.baseOffset.toInt + r.offsetDelta.toInt

/-- C12, for batches of one message; and for any number, the batch claims as many offsets as it has messages.
Missing for the full statement: the messages of larger batches (`C12_violated`). -/
theorem C12_single_partial (cfg : ProducerCfg) (ts : Int64) (ms : List KV) :
    (∀ m, ms = [m] → (createRecordBatch cfg ts (ms.map KV.record)).offsets = [(createRecordBatch cfg ts (ms.map KV.record)).baseOffset.toInt]) ∧
    (1 ≤ ms.length → ms.length < 2 ^ 31 →
      (createRecordBatch cfg ts (ms.map KV.record)).lastOffsetDelta.toInt = ms.length - 1) := by
  constructor
  · rintro m rfl
    rfl
  · intro h1 h2
    have h3 : (Int32.ofNat ms.length).toInt = ms.length := by
      rw [Int32.toInt_ofNat']
      exact Int.bmod_eq_of_le (by simp only [Int32.size]; omega) (by simp only [Int32.size]; omega)
    simp only [createRecordBatch, List.length_map]
    rw [Int32.toInt_sub, h3]
    show Int.bmod (_ - 1) _ = _
    exact Int.bmod_eq_of_le (by omega) (by omega)

/-- C12 does not hold for any batch of two or more messages: they all have the same offset. -/
theorem C12_violated (cfg : ProducerCfg) (ts : Int64) (ms : List KV) :
    (∀ o ∈ (createRecordBatch cfg ts (ms.map KV.record)).offsets, o = 0) ∧
    (2 ≤ ms.length → ¬ (createRecordBatch cfg ts (ms.map KV.record)).offsets.Nodup) := by
  have h : (createRecordBatch cfg ts (ms.map KV.record)).offsets = List.replicate ms.length 0 := by
    simp only [RecordBatch.offsets, createRecordBatch, List.map_map]
    rw [List.eq_replicate_iff]
    constructor
    · simp
    · intro o ho
      obtain ⟨m, -, rfl⟩ := List.mem_map.1 ho
      rfl
  rw [h]
  constructor
  · intro o ho
    exact List.eq_of_mem_replicate ho
  · intro h2 hn
    rw [List.nodup_replicate] at hn
    omega

/-- the settings a user starts from -/
def plainCfg : ProducerCfg := ⟨[104], -1, 1500, 0, 2⟩

/-- two messages as the producer sends them, stored by a broker at offset 40 -/
def producedBatch : Kafka.Batch :=
  { (createRecordBatch plainCfg 1000 [KV.record ⟨none, [118]⟩, KV.record ⟨none, [119]⟩]).toSpec with baseOffset := 40 }

/-- C12: this client's own consumer gets both messages with offset 40; it goes on at 41, where it gets no message but
the complaint that the fetch size is too small. -/
theorem C12_violated_consumer :
    runOn { startOffset := 40 } (sampleResponse (Kafka.batch producedBatch)) =
      some ⟨[some ⟨[116], 3, ⟨40, 1000, [], [118], []⟩⟩, some ⟨[116], 3, ⟨40, 1000, [], [119], []⟩⟩], [99]⟩ ∧
    runOn { startOffset := 41 } (sampleResponse (Kafka.batch producedBatch)) = some ⟨[none], [99]⟩ := by
  decide +kernel

/-! ## The bytes -/

/-- C46, down to the bytes: the request for a batch of messages, in the version the client uses with current brokers
and without compression, is Kafka's produce request with one batch of Kafka's format holding just these messages. -/
theorem C46_request_bytes (compress : Int8 → Bytes → Out Bytes) (cfg : ProducerCfg) (hm : cfg.magic = 2) (hc : cfg.compression = 0)
    (topic : Bytes) (partition : Int32) (ts : Int64) (ms : List KV) (corr : UInt32) (cid : Option Bytes)
    (hcid : ∀ b, cid = some b → b.length ≤ 32767) (ht : topic.length < 2 ^ 63)
    (hl : (Kafka.batch (createRecordBatch cfg ts (ms.map KV.record)).toSpec).length < 2 ^ 63) :
    ∃ b : Kafka.Batch,
      (produceRequestOf cfg topic partition ts ms).encode compress (reqHeader API_ProduceRequest 9 corr cid) =
        .ok (Kafka.request .produce 9 corr.toNat cid
          (Kafka.produceRequest 9 none cfg.acks.toInt cfg.requestTimeoutMS.toInt [(topic, [(partition.toInt, Kafka.batch b)])])) ∧
      b.records.map (fun r => (r.key, r.value)) = ms.map fun m => (m.key, some m.value) := by
  refine ⟨(createRecordBatch cfg ts (ms.map KV.record)).toSpec, ?_, ?_⟩
  · have hb : (createRecordBatch cfg ts (ms.map KV.record)).encode compress =
        .ok (Kafka.batch (createRecordBatch cfg ts (ms.map KV.record)).toSpec) := by
      refine C10_uncompressed compress _ hm ?_ ?_
      · simp [createRecordBatch, hc]
      · intro x hx _
        obtain ⟨m, -, rfl⟩ := List.mem_map.1 (show x ∈ ms.map KV.record from hx)
        exact ⟨show (-64 : Int) ≤ (0 : Int32).toInt by decide, show (0 : Int32).toInt ≤ 63 by decide⟩
    have he : encodeBatches compress [createRecordBatch cfg ts (ms.map KV.record)] =
        .ok (Kafka.batch (createRecordBatch cfg ts (ms.map KV.record)).toSpec) := by
      simp only [encodeBatches, hb]
      show Out.ok (_ ++ []) = _
      rw [List.append_nil]
    have := C64_produce_v9_partial compress (fun _ => Kafka.batch (createRecordBatch cfg ts (ms.map KV.record)).toSpec)
      (produceRequestOf cfg topic partition ts ms)
      (by simp only [produceRequestOf, List.mem_singleton, forall_eq]; exact he)
      (fun _ _ _ _ => hl)
      (by simp only [produceRequestOf, List.mem_singleton, forall_eq]; exact ⟨ht, by simp⟩)
      (by simp [produceRequestOf]) (by simp [produceRequestOf]) corr cid hcid
    exact this
  · simp only [RecordBatch.toSpec, createRecordBatch, List.map_map]
    rfl

end Healer
