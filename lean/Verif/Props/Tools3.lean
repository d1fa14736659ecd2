import Verif.Model.Tools
import Verif.Props.Producer
import Verif.Props.Exact

/-!
# C130, C131: simple-producer and simple-consumer
-/

namespace Healer

/-! ## C130: simple-producer -/

/-- a line as a message -/
def lineMessage (line : Bytes) : KV := ⟨none, line⟩

/-- the answers of the broker in a run of the tool -/
def answersOf : List (Bytes × List (Option Err) × Option Err) → List (Option Err)
  | [] => []
  | (_, ticks, answer) :: rest => ticks ++ answer :: answersOf rest

/-- What holds after `done` lines, where `as` are the answers so far. -/
structure PipeInv (done : List Bytes) (as : List (Option Err)) (p : SP) : Prop where
  opened : p.closed = false
  keyless : ∀ r ∈ p.records, r.key = none
  all : sentIn p.log ++ p.records.map (Buffered.kv p.mem) = done.map lineMessage
  accepted : acceptedIn p.log = done.map lineMessage
  none_refused : ∀ m e, Produced.added m (some e) ∉ p.log
  results : ∀ ms r, Produced.sent ms r ∈ p.log → r ∈ as

theorem map_kv_keyless (rs : List Buffered) (h : ∀ r ∈ rs, r.key = none) (mem mem' : Nat → Bytes) :
    rs.map (Buffered.kv mem) = rs.map (Buffered.kv mem') := by
  apply List.map_congr_left
  intro r hr
  simp [Buffered.kv, h r hr]

theorem PipeInv.flush {done : List Bytes} {as : List (Option Err)} {p : SP} (h : PipeInv done as p) (a : Option Err) :
    PipeInv done (as ++ [a]) (p.flushAll a) := by
  unfold SP.flushAll
  split
  · refine ⟨h.opened, by simp, ?_, ?_, ?_, ?_⟩
    · simp only [sentIn_append, sentIn, List.append_nil, List.map_nil]
      exact h.all
    · simp only [acceptedIn_append, acceptedIn, List.append_nil]
      exact h.accepted
    · intro m e hm
      rcases List.mem_append.1 hm with hm | hm
      · exact h.none_refused m e hm
      · simp at hm
    · intro ms r hm
      rcases List.mem_append.1 hm with hm | hm
      · exact List.mem_append_left _ (h.results ms r hm)
      · simp at hm
        simp [hm.2]
  · refine ⟨h.opened, h.keyless, ?_, ?_, ?_, ?_⟩
    · simp only [sentIn_append, sentIn, List.append_nil]
      exact h.all
    · simp only [acceptedIn_append, acceptedIn, List.append_nil]
      exact h.accepted
    · intro m e hm
      rcases List.mem_append.1 hm with hm | hm
      · exact h.none_refused m e hm
      · simp at hm
    · intro ms r hm
      rcases List.mem_append.1 hm with hm | hm
      · exact List.mem_append_left _ (h.results ms r hm)
      · simp at hm

theorem PipeInv.flushes {done : List Bytes} {as : List (Option Err)} {p : SP} (h : PipeInv done as p) (max : Int) (ticks : List (Option Err)) :
    PipeInv done (as ++ ticks) (SP.run max (ticks.map .flush) p) ∧ (SP.run max (ticks.map .flush) p).mem = p.mem := by
  induction ticks generalizing as p with
  | nil => simpa [SP.run] using h
  | cons a ticks ih =>
    have := ih (h.flush a)
    simp only [List.map_cons, SP.run, SP.step]
    refine ⟨by simpa using this.1, this.2.trans ?_⟩
    unfold SP.flushAll
    split <;> rfl

theorem PipeInv.add {done : List Bytes} {as : List (Option Err)} {p : SP} (h : PipeInv done as p) (max : Int) (line : Bytes)
    (hm : p.mem 0 = line) (a : Option Err) : PipeInv (done ++ [line]) (as ++ [a]) (p.addMessage max none 0 a) := by
  unfold SP.addMessage
  rw [if_neg (by rw [h.opened]; simp)]
  simp only
  have hkeys : ∀ r ∈ p.records ++ [⟨none, p.mem 0⟩], r.key = none := by
    intro r hr
    rcases List.mem_append.1 hr with hr | hr
    · exact h.keyless r hr
    · simp at hr
      rw [hr]
  split
  · refine ⟨h.opened, by simp, ?_, ?_, ?_, ?_⟩
    · simp only [sentIn_append, sentIn, List.append_nil, List.map_nil, List.map_append, List.map_cons]
      rw [← List.append_assoc, h.all]
      simp [Buffered.kv, lineMessage, hm]
    · simp only [acceptedIn_append, acceptedIn, h.accepted, List.map_append]
      simp [lineMessage, hm]
    · intro m e hx
      rcases List.mem_append.1 hx with hx | hx
      · exact h.none_refused m e hx
      · simp at hx
    · intro ms r hx
      rcases List.mem_append.1 hx with hx | hx
      · exact List.mem_append_left _ (h.results ms r hx)
      · simp at hx
        simp [hx.2]
  · refine ⟨h.opened, hkeys, ?_, ?_, ?_, ?_⟩
    · simp only [sentIn_append, sentIn, List.append_nil, List.map_append, List.map_cons, List.map_nil]
      rw [← List.append_assoc, h.all]
      simp [Buffered.kv, lineMessage, hm]
    · simp only [acceptedIn_append, acceptedIn, h.accepted, List.map_append]
      simp [lineMessage, hm]
    · intro m e hx
      rcases List.mem_append.1 hx with hx | hx
      · exact h.none_refused m e hx
      · simp at hx
    · intro ms r hx
      rcases List.mem_append.1 hx with hx | hx
      · exact List.mem_append_left _ (h.results ms r hx)
      · simp at hx

theorem PipeInv.lines (max : Int) (ls : List (Bytes × List (Option Err) × Option Err)) :
    ∀ {done : List Bytes} {as : List (Option Err)} {p : SP}, PipeInv done as p →
      PipeInv (done ++ ls.map Prod.fst) (as ++ answersOf ls) (SP.run max (pipeLines ls) p) := by
  induction ls with
  | nil => intro done as p h; simpa [pipeLines, answersOf, SP.run] using h
  | cons l ls ih =>
    intro done as p h
    obtain ⟨line, ticks, answer⟩ := l
    simp only [pipeLines, List.cons_append, SP.run, SP.step, SP.run_append]
    have h1 : PipeInv done as { p with mem := fun j => if j = 0 then line else p.mem j } :=
      ⟨h.opened, h.keyless, by rw [map_kv_keyless _ h.keyless _ p.mem]; exact h.all, h.accepted, h.none_refused, h.results⟩
    have h2 := h1.flushes max ticks
    have h3 := h2.1.add max line (by rw [h2.2]; simp) answer
    have := ih h3
    simpa [answersOf] using this

/-- C130: whatever batches the producer makes and whenever its timer fires, once simple-producer has closed it the produce requests sent hold the lines read, each once, in order and unchanged, though
the scanner reuses its buffer for every line; no line was refused, and if the broker accepted every request it has all of them.
Missing for the full statement: requests the broker refuses (`C130_violated_refused`). -/
theorem C130_partial (max : Int) (ls : List (Bytes × List (Option Err) × Option Err)) (last : Option Err) (mem : Nat → Bytes) :
    let log := (SP.run max (pipeLines ls ++ [.close last]) { mem }).log
    sentIn log = ls.map (fun l => lineMessage l.1) ∧ acceptedIn log = ls.map (fun l => lineMessage l.1) ∧ (∀ m e, Produced.added m (some e) ∉ log) ∧
    ((∀ a ∈ answersOf ls ++ [last], a = none) → ∀ ms r, Produced.sent ms r ∈ log → r = none) := by
  have h := PipeInv.lines max ls (done := []) (as := []) (p := { mem }) ⟨rfl, by simp, rfl, rfl, by simp, by simp⟩
  simp only [List.nil_append] at h
  rw [SP.run_append]
  generalize SP.run max (pipeLines ls) { mem } = p at h
  have hmap : ls.map (fun l => lineMessage l.1) = (ls.map Prod.fst).map lineMessage := by simp
  simp only [SP.run, SP.step, SP.close, h.opened, Bool.false_eq_true, if_false, hmap]
  split
  · refine ⟨?_, ?_, ?_, ?_⟩
    · simp only [sentIn_append, sentIn, List.append_nil]
      exact h.all
    · simp only [acceptedIn_append, acceptedIn, List.append_nil]
      exact h.accepted
    · intro m e hm
      rcases List.mem_append.1 hm with hm | hm
      · exact h.none_refused m e hm
      · simp at hm
    · intro ha ms r hm
      rcases List.mem_append.1 hm with hm | hm
      · exact ha r (List.mem_append_left _ (h.results ms r hm))
      · simp at hm
        exact ha r (by simp [hm.2])
  · rename_i hlen
    have hnil : p.records = [] := List.length_eq_zero_iff.1 (by omega)
    refine ⟨?_, ?_, ?_, ?_⟩
    · simp only [sentIn_append, sentIn, List.append_nil]
      have := h.all
      rw [hnil] at this
      simpa using this
    · simp only [acceptedIn_append, acceptedIn, List.append_nil]
      exact h.accepted
    · intro m e hm
      rcases List.mem_append.1 hm with hm | hm
      · exact h.none_refused m e hm
      · simp at hm
    · intro ha ms r hm
      rcases List.mem_append.1 hm with hm | hm
      · exact ha r (List.mem_append_left _ (h.results ms r hm))
      · simp at hm

example : (SP.run 2 (pipeLines [([1], [], none), ([2, 3], [none], none), ([], [], none)] ++ [.close none]) {}).log =
    [.added ⟨none, [1]⟩ none, .sent [⟨none, [1]⟩] none, .flushed none, .added ⟨none, [2, 3]⟩ none, .sent [⟨none, [2, 3]⟩, ⟨none, []⟩] none,
      .added ⟨none, []⟩ none, .closed] := by decide +kernel

/-- C130 does not hold if the broker refuses a request: its lines are lost, and no call tells the tool, which ends as if all had been sent. -/
theorem C130_violated_refused : (SP.run 2 (pipeLines [([1], [], none), ([2], [], some .timeout), ([3], [], none)] ++ [.close (some .timeout)]) {}).log =
    [.added ⟨none, [1]⟩ none, .sent [⟨none, [1]⟩, ⟨none, [2]⟩] (some .timeout), .added ⟨none, [2]⟩ none, .added ⟨none, [3]⟩ none,
      .sent [⟨none, [3]⟩] (some .timeout), .closed] := by decide +kernel

/-! ## C131: simple-consumer -/

/-- what the consumer delivers for a message -/
def deliver (topic : Bytes) (pid : Int32) (m : Message) : FullMessage := ⟨topic, pid, none, some m⟩

/-- The messages of `L` a user asking for at most `n` from `start` on and before `stop` (0 or less: no end) wants. -/
def stretch (L : List Kafka.Stored) (start : Int) (stop : Int) (n : Nat) : List Kafka.Stored :=
  (L.filter fun m => decide (m.offset ≥ start) && (decide (stop ≤ 0) || decide (m.offset < stop))).take n

theorem printLoop_prints (stop : Int64) (topic : Bytes) (pid : Int32) : ∀ (n : Nat) (ms : List Message) (want : List Kafka.Stored),
    want.Pairwise (fun a b => a.offset < b.offset) → ms.map Message.seen <+: want →
    ∃ k, (printLoop stop n (ms.map (deliver topic pid))).1 = (ms.take k).map .message ∧
      (ms.take k).map Message.seen <+: (want.filter fun m => decide (stop.toInt ≤ 0) || decide (m.offset < stop.toInt)).take n ∧
      ((printLoop stop n (ms.map (deliver topic pid))).2 = some () →
        (ms.take k).map Message.seen = (want.filter fun m => decide (stop.toInt ≤ 0) || decide (m.offset < stop.toInt)).take n)
  | 0, ms, want, _, _ => ⟨0, rfl, by simp, by simp⟩
  | n + 1, [], want, _, _ => ⟨0, rfl, by simp, by simp [printLoop]⟩
  | n + 1, m :: ms, want, hs, hp => by
    obtain ⟨rest, hrest⟩ := hp
    subst hrest
    simp only [List.map_cons, List.cons_append] at hs ⊢
    rw [List.pairwise_cons] at hs
    have hoff : m.seen.offset = m.offset.toInt := rfl
    by_cases hstop : stop > 0 ∧ m.offset ≥ stop
    · refine ⟨0, ?_, by simp, fun _ => ?_⟩
      · simp [printLoop, deliver, hstop]
      · have h1 := Int64.lt_iff_toInt_lt.1 hstop.1
        have h2 := Int64.le_iff_toInt_le.1 hstop.2
        have h0 : (0 : Int64).toInt = 0 := rfl
        have : ((m.seen :: (ms.map Message.seen ++ rest)).filter fun m => decide (stop.toInt ≤ 0) || decide (m.offset < stop.toInt)) = [] := by
          rw [List.filter_eq_nil_iff]
          intro x hx
          have : stop.toInt ≤ x.offset := by
            rcases List.mem_cons.1 hx with rfl | hx
            · rw [hoff]
              exact h2
            · have := hs.1 x hx
              rw [hoff] at this
              omega
          simp
          omega
        rw [this]
        rfl
    · obtain ⟨k, h1, h2, h3⟩ := printLoop_prints stop topic pid n ms (ms.map Message.seen ++ rest) hs.2 ⟨rest, rfl⟩
      have hkeep : (decide (stop.toInt ≤ 0) || decide (m.seen.offset < stop.toInt)) = true := by
        rw [hoff]
        simp only [Bool.or_eq_true, decide_eq_true_eq]
        simp only [gt_iff_lt, ge_iff_le, Int64.lt_iff_toInt_lt, Int64.le_iff_toInt_le, not_and, Int.not_le] at hstop
        have h0 : (0 : Int64).toInt = 0 := rfl
        omega
      have hstep : printLoop stop (n + 1) (deliver topic pid m :: ms.map (deliver topic pid)) =
          (.message m :: (printLoop stop n (ms.map (deliver topic pid))).1, (printLoop stop n (ms.map (deliver topic pid))).2) := by
        simp only [printLoop, deliver, if_neg hstop]
      refine ⟨k + 1, ?_, ?_, ?_⟩
      · rw [hstep, h1]
        simp
      · rw [List.filter_cons, if_pos hkeep]
        simp only [List.take_succ_cons, List.map_cons]
        exact List.prefix_cons_inj _ |>.2 h2
      · intro hend
        rw [hstep] at hend
        rw [List.filter_cons, if_pos hkeep]
        simp only [List.take_succ_cons, List.map_cons]
        rw [h3 hend]

theorem filter_stretch (L : List Kafka.Stored) (start stop : Int) :
    (fromOffset L start).filter (fun m => decide (stop ≤ 0) || decide (m.offset < stop)) =
      L.filter fun m => decide (m.offset ≥ start) && (decide (stop ≤ 0) || decide (m.offset < stop)) := by
  unfold fromOffset
  rw [List.filter_filter]
  apply List.filter_congr
  intro x _
  rw [Bool.and_comm]

/-- messages the user took, with no look-up of the position in between, are a beginning of those stored from the start on -/
theorem taken_prefix (env : ConsumerEnv) (L : List Kafka.Stored) (hL : L.Pairwise fun a b => a.offset < b.offset)
    (hmax : ∀ m ∈ L, m.offset + 1 < 2 ^ 63) (as : List ConsumerAct) (s s' : SC) (hlog : s.log = []) (hl : s.loop = .top) (hq : s.queue = [])
    (hfed : Fed (fun o ms => FromLog (fromOffset L o.toInt) ms) env as s) (h : s.run env as = some s')
    (hno : ∀ e ∈ s'.log, ∀ f a, e ≠ .lookup f a) : (takenOut s'.log).map Message.seen <+: fromOffset L s.offset.toInt := by
  have h1 := C37_exactly_once env L hL hmax as s s' hlog hl hfed h
  have h2 := (C37_received_in_order env as s s' hlog hq h).1
  have key : ∀ (log : List Seen), (∀ e ∈ log, ∀ f a, e ≠ .lookup f a) → ∀ (acc : List Message) (o : Int64),
      log.foldl (fun acc e => match e with
        | .put m => acc ++ [m]
        | .lookup _ _ => []
        | _ => acc) acc = acc ++ putIn log ∧ lastReset o log = o := by
    intro log
    induction log with
    | nil => intro _ acc o; simp [putIn, lastReset]
    | cons e log ih =>
      intro hno acc o
      have ih' := ih fun x hx => hno x (List.mem_cons_of_mem _ hx)
      cases e with
      | put m => exact ⟨by simpa [putIn] using (ih' (acc ++ [m]) o).1, (ih' acc o).2⟩
      | lookup f a => exact absurd rfl (hno _ (by simp) f a)
      | fetch a b => exact ih' acc o
      | got m => exact ih' acc o
      | commit a b c d => exact ih' acc o
      | member a b => exact ih' acc o
  have h3 := key s'.log hno [] s.offset
  have h4 : sinceLookup s'.log = putIn s'.log := by
    have := h3.1
    rw [List.nil_append] at this
    rw [← this]
    unfold sinceLookup
    congr 1
  rw [h4, h3.2] at h1
  exact (h2.map _).trans h1

/-- C131: let `L` be the messages of the partition, by ascending offset, and let every fetch at `o` give a beginning of those from `o` on.  What simple-consumer prints of the messages it takes from
the consumer, started at an offset and never looking its position up again, are those asked for: from the offset on, before `--stopoffset`, at most `--max-messages`, in order; and when it ends it has
printed all of these.
Missing for the full statement: that it ends when these are printed (`C131_violated_waits`). -/
theorem C131_partial (env : ConsumerEnv) (L : List Kafka.Stored) (hL : L.Pairwise fun a b => a.offset < b.offset)
    (hmax : ∀ m ∈ L, m.offset + 1 < 2 ^ 63) (as : List ConsumerAct) (s s' : SC) (hlog : s.log = []) (hl : s.loop = .top) (hq : s.queue = [])
    (hfed : Fed (fun o ms => FromLog (fromOffset L o.toInt) ms) env as s) (h : s.run env as = some s')
    (hno : ∀ e ∈ s'.log, ∀ f a, e ≠ .lookup f a) (topic : Bytes) (pid : Int32) (stop : Int64) (n : Nat) :
    ∃ printed : List Message, (printLoop stop n ((takenOut s'.log).map (deliver topic pid))).1 = printed.map .message ∧
      printed.map Message.seen <+: stretch L s.offset.toInt stop.toInt n ∧
      ((printLoop stop n ((takenOut s'.log).map (deliver topic pid))).2 = some () →
        printed.map Message.seen = stretch L s.offset.toInt stop.toInt n) := by
  have hp := taken_prefix env L hL hmax as s s' hlog hl hq hfed h hno
  obtain ⟨k, h1, h2, h3⟩ := printLoop_prints stop topic pid n (takenOut s'.log) (fromOffset L s.offset.toInt) (hL.filter _) hp
  rw [filter_stretch] at h2 h3
  exact ⟨_, h1, h2, h3⟩

/-- the messages at 5, 7 and 8, taken by the tool: with `--stopoffset 8` it prints those at 5 and 7 and ends; with `--max-messages 1` the first -/
example : printLoop 8 10 ([5, 7, 8].map fun o => deliver [116] 0 { offset := o }) = ([.message { offset := 5 }, .message { offset := 7 }], some ()) ∧
    printLoop 0 1 ([5, 7, 8].map fun o => deliver [116] 0 { offset := o }) = ([.message { offset := 5 }], some ()) := by decide

example : (stretch threeStored 5 8 10).map Kafka.Stored.offset = [5, 7] ∧ (stretch threeStored 6 0 10).map Kafka.Stored.offset = [7, 8] := by decide

/-- C131: simple-consumer ends when as many messages as asked for have come, or one at or after `--stopoffset`.
Missing: when fewer messages come (`C131_violated_waits`). -/
theorem C131_ends_partial (topic : Bytes) (pid : Int32) (stop : Int64) : ∀ (n : Nat) (ms : List Message),
    (n ≤ ms.length ∨ (0 < stop.toInt ∧ ∃ m ∈ ms, stop.toInt ≤ m.offset.toInt)) →
    (printLoop stop n (ms.map (deliver topic pid))).2 = some ()
  | 0, ms, _ => by simp [printLoop]
  | n + 1, [], h => by simp at h
  | n + 1, m :: ms, h => by
    by_cases hs : stop > 0 ∧ m.offset ≥ stop
    · simp [printLoop, deliver, hs]
    · have ih := C131_ends_partial topic pid stop n ms ?_
      · simpa [printLoop, deliver, hs] using ih
      · rcases h with h | ⟨h0, x, hx, hxs⟩
        · exact .inl (by simpa using h)
        · rcases List.mem_cons.1 hx with rfl | hx
          · exact absurd ⟨Int64.lt_iff_toInt_lt.2 h0, Int64.le_iff_toInt_le.2 hxs⟩ hs
          · exact .inr ⟨h0, x, hx, hxs⟩

example : printLoop 0 2 ([5, 7, 8].map fun o => deliver [116] 0 { offset := o }) =
      ([.message { offset := 5 }, .message { offset := 7 }], some ()) ∧
    printLoop 6 10 ([5, 7].map fun o => deliver [116] 0 { offset := o }) = ([.message { offset := 5 }], some ()) := by decide

/-- the hypotheses of C131: two fetches, of which the first ends in an error (see Exact.lean), and the user takes what there is -/
example : ∃ s', SC.run { mode := .none, capacity := 3 } ([.fetched [at' 5, at' 7, bad .eof]] ++ take' ++ take') { offset := 5, fetchMaxBytes := 100 } = some s' ∧
    ∀ e ∈ s'.log, ∀ f a, e ≠ .lookup f a := by
  refine ⟨_, rfl, ?_⟩
  intro e he f a heq
  subst heq
  simp [putSeen] at he

/-- C131 does not hold for a `--stopoffset` just after the last message: all messages before it are printed, but the tool waits for the one at that offset. -/
theorem C131_violated_waits : printLoop 9 10 ([5, 7, 8].map fun o => deliver [116] 0 { offset := o }) =
      ([.message { offset := 5 }, .message { offset := 7 }, .message { offset := 8 }], none) ∧
    (stretch threeStored 5 9 10).length = 3 := by decide

end Healer
