import Verif.Model.Locks
import Verif.Props.Broker
import Verif.Props.Broker2
import Verif.Props.Brokers
import Verif.Props.Producer

/-!
# C159: calls from several goroutines behave as calls made one after the other
-/

namespace Healer

variable {S α : Type}

/-- The calls of the goroutines made one after the other, each as a whole: the results in order, and the state they leave. -/
inductive OneByOne (next : Nat → List α → Option (Steps S α)) (s0 : S) : List (Nat × α) → S → Prop
  | start : OneByOne next s0 [] s0
  | call {done : List (Nat × α)} {s : S} {i : Nat} {t : Steps S α} : OneByOne next s0 done s → next i (resultsOf i done) = some t →
      OneByOne next s0 (done ++ [(i, (t.run s).1)]) (t.run s).2

/-- What is true in every interleaving: with the lock free nobody is inside a call; with the lock held only the holder is, and what is left of its call will give what the
whole call gives after the calls that have returned. -/
structure Serial (next : Nat → List α → Option (Steps S α)) (stuck : α → Bool) (s0 : S) (w : Mutexed S α) : Prop where
  free : w.holder = none → (∀ i, w.inside i = none) ∧ OneByOne next s0 w.returned w.shared
  held : ∀ i, w.holder = some i → (∀ j, j ≠ i → w.inside j = none) ∧
    ∃ t t0 s, w.inside i = some t ∧ OneByOne next s0 w.returned s ∧ next i (resultsOf i w.returned) = some t0 ∧ t0.run s = t.run w.shared
  alive : ∀ x ∈ w.returned, stuck x.2 = false

theorem Serial.step {next : Nat → List α → Option (Steps S α)} {stuck : α → Bool} {s0 : S} {w w' : Mutexed S α} (h : Serial next stuck s0 w) (a : MutexAct)
    (hs : w.step next stuck a = some w') : Serial next stuck s0 w' := by
  cases a with
  | lock i =>
    simp only [Mutexed.step, Mutexed.lock] at hs
    split at hs
    case h_2 => cases hs
    case h_1 t hh hi hn =>
      cases hs
      obtain ⟨hf, ho⟩ := h.free hh
      refine ⟨by simp, ?_, h.alive⟩
      intro j hj
      simp only [Option.some.injEq] at hj
      subst hj
      exact ⟨fun k hk => by simp [Mutexed.put, hk, hf], t, t, w.shared, by simp [Mutexed.put], ho, hn, rfl⟩
  | go i =>
    simp only [Mutexed.step, Mutexed.go] at hs
    have hold : ∀ t, w.inside i = some t → w.holder = some i := by
      intro t ht
      rcases hh : w.holder with _ | j
      · rw [(h.free hh).1 i] at ht; cases ht
      · by_cases hj : i = j
        · rw [hj]
        · rw [(h.held j hh).1 i hj] at ht; cases ht
    split at hs
    case h_1 => cases hs
    case h_2 f k hi =>
      cases hs
      have hh := hold _ hi
      obtain ⟨hothers, t, t0, s, ht, ho, hn, hr⟩ := h.held i hh
      rw [hi] at ht
      cases ht
      refine ⟨fun hx => (by rw [show w.holder = none from hx] at hh; cases hh), ?_, h.alive⟩
      intro j hj
      have hj : w.holder = some j := hj
      rw [hh] at hj
      cases hj
      exact ⟨fun x hx => by simp [Mutexed.put, hx, hothers x hx], k w.shared, t0, s, by simp [Mutexed.put], ho, hn, by rw [hr]; rfl⟩
    case h_3 a hi =>
      split at hs
      · cases hs
      case isFalse hst =>
        cases hs
        have hh := hold _ hi
        obtain ⟨hothers, t, t0, s, ht, ho, hn, hr⟩ := h.held i hh
        rw [hi] at ht
        cases ht
        refine ⟨fun _ => ⟨?_, ?_⟩, fun j hj => (by cases hj), ?_⟩
        · intro j
          by_cases hj : j = i
          · simp [Mutexed.put, hj]
          · simp [Mutexed.put, hj, hothers j hj]
        · have := OneByOne.call ho hn
          rw [hr] at this
          exact this
        · intro x hx
          rcases List.mem_append.1 hx with hx | hx
          · exact h.alive x hx
          · simp only [List.mem_singleton] at hx
            subst hx
            simpa using hst

theorem Serial.run {next : Nat → List α → Option (Steps S α)} {stuck : α → Bool} {s0 : S} (as : List MutexAct) {w w' : Mutexed S α} (h : Serial next stuck s0 w)
    (hs : w.run next stuck as = some w') : Serial next stuck s0 w' := by
  induction as generalizing w with
  | nil => cases hs; exact h
  | cons a as ih =>
    simp only [Mutexed.run] at hs
    split at hs
    · cases hs
    case h_2 w1 hw => exact ih (h.step a hw) hs

theorem Serial.start (next : Nat → List α → Option (Steps S α)) (stuck : α → Bool) (s0 : S) : Serial next stuck s0 { shared := s0 } :=
  ⟨fun _ => ⟨fun _ => rfl, .start⟩, fun _ h => (by cases h), fun _ h => (by cases h)⟩

/-- **C159**, for any object guarded by one mutex: whatever the calls are, whatever steps they consist of and however the steps interleave, at most one goroutine is inside a
call at any time; whenever nobody is, the results and the state are those of calls made one after the other in the order in which they returned. -/
theorem C159_serial (next : Nat → List α → Option (Steps S α)) (stuck : α → Bool) (s0 : S) (as : List MutexAct) (w : Mutexed S α)
    (h : Mutexed.run next stuck as { shared := s0 } = some w) :
    (∀ i j, w.inside i ≠ none → w.inside j ≠ none → i = j) ∧ ((∀ i, w.inside i = none) → OneByOne next s0 w.returned w.shared) := by
  have hs := (Serial.start next stuck s0).run as h
  constructor
  · intro i j hi hj
    rcases hh : w.holder with _ | k
    · exact absurd ((hs.free hh).1 i) hi
    · have h1 : i = k := by_contra fun hne => hi ((hs.held k hh).1 i hne)
      have h2 : j = k := by_contra fun hne => hj ((hs.held k hh).1 j hne)
      rw [h1, h2]
  · intro hn
    rcases hh : w.holder with _ | k
    · exact (hs.free hh).2
    · obtain ⟨_, t, _, _, ht, _⟩ := hs.held k hh
      rw [hn k] at ht
      cases ht

/-- **C159**, nobody waits for ever: unless a call is blocked inside or has crashed, a goroutine that is inside a call or has a call to make is not the only reason
why things stop: some step can happen. -/
theorem C159_progress (next : Nat → List α → Option (Steps S α)) (stuck : α → Bool) (s0 : S) (as : List MutexAct) (w : Mutexed S α)
    (h : Mutexed.run next stuck as { shared := s0 } = some w) (hs : ∀ i a, w.inside i = some (.ret a) → stuck a = false)
    (i : Nat) (hi : w.inside i ≠ none ∨ next i (resultsOf i w.returned) ≠ none) : ∃ a w', w.step next stuck a = some w' := by
  have hser := (Serial.start next stuck s0).run as h
  rcases hh : w.holder with _ | k
  · obtain ⟨hf, _⟩ := hser.free hh
    rcases hi with hi | hi
    · exact absurd (hf i) hi
    · obtain ⟨t, ht⟩ := Option.ne_none_iff_exists'.1 hi
      exact ⟨.lock i, { w with holder := some i, inside := w.put i (some t) }, by simp [Mutexed.step, Mutexed.lock, hh, hf i, ht]⟩
  · obtain ⟨_, t, _, _, ht, _⟩ := hser.held k hh
    cases t with
    | step f g => exact ⟨.go k, { w with shared := f w.shared, inside := w.put k (some (g w.shared)) }, by simp [Mutexed.step, Mutexed.go, ht]⟩
    | ret a => exact ⟨.go k, { w with holder := none, inside := w.put k none, returned := w.returned ++ [(k, a)] }, by simp [Mutexed.step, Mutexed.go, ht, hs k a ht]⟩

/-! ## Requests on one broker -/

/-- the result of a call after which nothing more happens -/
def Ret.dead : Ret α → Bool
  | .panic => true
  | .hang => true
  | _ => false

/-- what `runCalls` records of a result of `RequestAndGet` -/
def Ret.recorded : Ret Response → Ret (Option Response)
  | .ok r => .ok (some r)
  | .err e => .err e
  | .panic => .panic
  | .hang => .hang

theorem getCall_run (r : Req) (b : Broker) : Call.run (.get r) b = ((requestAndGet r b).1.recorded, (requestAndGet r b).2) := by
  change B.bind (requestAndGet r) _ b = _
  unfold B.bind
  rcases requestAndGet r b with ⟨x, b'⟩
  cases x <;> rfl

theorem runCalls_snoc (cs : List Call) (c : Call) (b : Broker) (h : ∀ x ∈ (runCalls cs b).1, x.dead = false) :
    runCalls (cs ++ [c]) b = ((runCalls cs b).1 ++ [(c.run (runCalls cs b).2).1], (c.run (runCalls cs b).2).2) := by
  induction cs generalizing b with
  | nil =>
    simp only [List.nil_append, runCalls]
    rcases c.run b with ⟨x, b'⟩
    cases x <;> rfl
  | cons d ds ih =>
    simp only [List.cons_append, runCalls] at h ⊢
    rcases hd : d.run b with ⟨x, b'⟩
    rw [hd] at h
    cases x with
    | panic => simp [Ret.dead] at h
    | hang => simp [Ret.dead] at h
    | ok a => simp only at h ⊢; rw [ih b' (fun x hx => h x (.tail _ hx))]; rfl
    | err e => simp only at h ⊢; rw [ih b' (fun x hx => h x (.tail _ hx))]; rfl

/-- `divide` gives the steps of `RequestAndGet`: any steps whose effect, undisturbed, is that of the call. -/
def DividesRequest (divide : Req → Steps Broker (Ret Response)) : Prop := ∀ r b, b.mux = false → (divide r).run b = requestAndGet r b

/-- The history `hs` (goroutine, request, result) is that of calls made one after the other from `b0` on, ending in `b`, each goroutine asking for what `ask` says. -/
structure HistoryOf (ask : Nat → List (Ret Response) → Option Req) (b0 b : Broker) (hs : List (Nat × Req × Ret Response)) : Prop where
  asked : ∀ k i r x, hs[k]? = some (i, r, x) → ask i (resultsOf i ((hs.take k).map fun h => (h.1, h.2.2))) = some r
  calls : runCalls (hs.map fun h => .get h.2.1) b0 = (hs.map fun h => h.2.2.recorded, b)

theorem requestAndGet_mux (r : Req) (b : Broker) (h : (requestAndGet r b).1 ≠ .hang) : (requestAndGet r b).2.mux = false := by
  unfold requestAndGet requestAndGetWith locked at h ⊢
  split at h
  · exact absurd rfl h
  · rename_i hm
    rw [if_neg hm]
    split at h
    · exact absurd rfl h
    · rfl

theorem dead_recorded (x : Ret Response) : x.recorded.dead = x.dead := by cases x <;> rfl

theorem history_of {ask : Nat → List (Ret Response) → Option Req} {divide : Req → Steps Broker (Ret Response)} (hd : DividesRequest divide) {b0 : Broker}
    (hm : b0.mux = false) {done : List (Nat × Ret Response)} {b : Broker} (h : OneByOne (fun i rs => (ask i rs).map divide) b0 done b)
    (ha : ∀ x ∈ done, x.2.dead = false) :
    b.mux = false ∧ ∃ hs, HistoryOf ask b0 b hs ∧ done = hs.map fun h => (h.1, h.2.2) := by
  induction h with
  | start => exact ⟨hm, [], ⟨by simp, rfl⟩, rfl⟩
  | @call done s i t _ hn ih =>
    obtain ⟨hmux, hs, hh, he⟩ := ih (fun x hx => ha x (List.mem_append_left _ hx))
    obtain ⟨r, hr, rfl⟩ := Option.map_eq_some_iff.1 hn
    have hx := ha (i, ((divide r).run s).1) (by simp)
    rw [hd r s hmux] at hx ⊢
    refine ⟨?_, hs ++ [(i, r, (requestAndGet r s).1)], ⟨?_, ?_⟩, by simp [he]⟩
    · refine requestAndGet_mux r s ?_
      intro h0
      simp [h0, Ret.dead] at hx
    · intro k j r' x hk
      rcases Nat.lt_or_ge k hs.length with hlt | hge
      · rw [List.getElem?_append_left hlt] at hk
        rw [List.take_append_of_le_length (Nat.le_of_lt hlt)]
        exact hh.asked k j r' x hk
      · rw [List.getElem?_append_right hge] at hk
        rcases Nat.eq_or_lt_of_le hge with heq | hlt
        · subst heq
          simp only [Nat.sub_self, List.getElem?_cons_zero, Option.some.injEq, Prod.mk.injEq] at hk
          obtain ⟨rfl, rfl, _⟩ := hk
          rw [List.take_left, ← he]
          exact hr
        · rw [List.getElem?_eq_none (by simp; omega)] at hk
          cases hk
    · have hres : ∀ x ∈ (runCalls (hs.map fun h => .get h.2.1) b0).1, x.dead = false := by
        rw [hh.calls]
        intro x hx
        obtain ⟨y, hy, rfl⟩ := List.mem_map.1 hx
        rw [dead_recorded]
        exact ha (y.1, y.2.2) (List.mem_append_left _ (by rw [he]; exact List.mem_map.2 ⟨y, hy, rfl⟩))
      rw [List.map_append, List.map_append, List.map_singleton, List.map_singleton, runCalls_snoc _ _ _ hres, hh.calls, getCall_run]

/-- the steps of `RequestAndGet`, roughly by the lines of the code: the lock is marked as taken, the connection is opened if need be, the request is sent and the answer read, the
connection closed after some errors, and the lock marked as free -/
def requestSteps (r : Req) : Steps Broker (Ret Response) :=
  .step (fun b => if b.mux then b else { b with mux := true }) fun b0 =>
    if b0.mux then .ret .hang else
    .step (fun b => (ensureOpen b).2) fun b1 =>
      match (ensureOpen b1).1 with
      | .ok _ => .step (fun b => (exchange r b).2) fun b2 =>
        match (exchange r b2).1 with
        | .hang => .ret .hang
        | x => .step (fun b => { b with mux := false }) fun _ => .ret x
      | .err e => .step (fun b => { b with mux := false }) fun _ => .ret (.err e)
      | .panic => .step (fun b => { b with mux := false }) fun _ => .ret .panic
      | .hang => .ret .hang

/-- so there are such steps -/
theorem requestSteps_divide : DividesRequest requestSteps := by
  intro r b hb
  have e : (do ensureOpenWith createConnAndAuth; exchange r : B Response) = B.bind ensureOpen (fun _ => exchange r) := rfl
  simp only [requestSteps, requestAndGet, requestAndGetWith, locked, e, hb, Steps.run, B.bind, Bool.false_eq_true, if_false]
  rcases h1 : ensureOpen { b with mux := true } with ⟨x, b1⟩
  cases x with
  | ok u =>
    simp only [Steps.run]
    rcases h2 : exchange r b1 with ⟨y, b2⟩
    cases y <;> simp [Steps.run]
  | err e => simp [Steps.run]
  | panic => simp [Steps.run]
  | hang => simp [Steps.run]

/-- **C159**, requests: any number of goroutines call `RequestAndGet` on one broker, what they ask for depending on the results they got.  However the steps of the calls
interleave, whenever nobody is inside a call, the results and everything sent, read, opened and closed are those of the same calls made one after the other. -/
theorem C159_requests (ask : Nat → List (Ret Response) → Option Req) (divide : Req → Steps Broker (Ret Response)) (hd : DividesRequest divide) (b0 : Broker)
    (hm : b0.mux = false) (as : List MutexAct) (w : Mutexed Broker (Ret Response))
    (h : Mutexed.run (fun i rs => (ask i rs).map divide) Ret.dead as { shared := b0 } = some w) (hn : ∀ i, w.inside i = none) :
    ∃ hs, HistoryOf ask b0 w.shared hs ∧ w.returned = hs.map fun h => (h.1, h.2.2) :=
  (history_of hd hm ((C159_serial _ _ b0 as w h).2 hn) ((Serial.start _ Ret.dead b0).run as h).alive).2

theorem newBroker_mux (sasl : SaslConfig) (dials : List (Except Err Script)) : (newBroker sasl dials).2.mux = false :=
  (frees_createConnAndAuth.step _ rfl).2.1

/-- **C159** with C29: any number of goroutines call `RequestAndGet` on one broker which answers in order, until the connection fails for good.  When a call is about to return a response, it
is the answer to the request of that very goroutine. -/
theorem C159_own (answers : Nat → List Bytes) (ha : ∀ i, ∀ a ∈ answers i, AnswerOk a) (sasl : SaslConfig) (dials : List (Except Err Script))
    (hdl : ∀ j s, dials[j]? = some (.ok s) → Delivers s.reads (answers j))
    (ask : Nat → List (Ret Response) → Option Req) (divide : Req → Steps Broker (Ret Response)) (hd : DividesRequest divide) (as : List MutexAct)
    (w : Mutexed Broker (Ret Response)) (h : Mutexed.run (fun i rs => (ask i rs).map divide) Ret.dead as { shared := (newBroker sasl dials).2 } = some w)
    (i : Nat) (resp : Response) (hi : w.inside i = some (.ret (.ok resp))) :
    ∃ r, ask i (resultsOf i w.returned) = some r ∧ Own answers r w.shared.log resp := by
  have hs := (Serial.start _ Ret.dead (newBroker sasl dials).2).run as h
  have hh : w.holder = some i := by
    rcases hh : w.holder with _ | j
    · rw [(hs.free hh).1 i] at hi; cases hi
    · by_cases hj : i = j
      · rw [hj]
      · rw [(hs.held j hh).1 i hj] at hi; cases hi
  obtain ⟨_, t, t0, s, ht, ho, hnx, hr⟩ := hs.held i hh
  rw [hi] at ht
  cases ht
  obtain ⟨r, hask, rfl⟩ := Option.map_eq_some_iff.1 hnx
  obtain ⟨hmux, hist, hhist, _⟩ := history_of hd (newBroker_mux sasl dials) ho hs.alive
  refine ⟨r, hask, ?_⟩
  rw [hd r s hmux] at hr
  have hb : s = (runCalls (hist.map fun h => .get h.2.1) (newBroker sasl dials).2).2 := by rw [hhist.calls]
  refine C29_own_partial answers ha sasl dials hdl (hist.map fun h => .get h.2.1) ?_ r resp w.shared ?_
  · intro c hc
    obtain ⟨x, _, rfl⟩ := List.mem_map.1 hc
    rfl
  · rw [← hb]
    exact hr

/-- three goroutines, each with one heartbeat to send -/
def askOnce : Nat → List (Ret Response) → Option Req := fun i rs => if i < 3 ∧ rs = [] then some hbReq else none

/-- While goroutine 2 is inside its call, the others cannot get the lock; then they come in the order 0, 1, and each gets its own answer. -/
example : (Mutexed.run (fun i rs => (askOnce i rs).map requestSteps) Ret.dead
      [.lock 2, .go 2, .go 2, .go 2, .go 2, .go 2, .lock 0, .go 0, .go 0, .go 0, .go 0, .go 0, .lock 1, .go 1, .go 1, .go 1]
      { shared := (newBroker noSasl goodDials).2 }).map (fun w => (w.returned, w.holder)) =
    some ([(2, .ok (.heartbeat ⟨2, 0⟩)), (0, .err (.wrapped (.kafka 27)))], some 1) := by decide +kernel

example : (Mutexed.run (fun i rs => (askOnce i rs).map requestSteps) Ret.dead [.lock 2, .go 2, .lock 0] { shared := (newBroker noSasl goodDials).2 }).isNone = true := by
  decide +kernel

/-! ## Look-ups of brokers, and partition producers -/

variable {C : Type}

/-- the state after calls made one after the other; a history lists goroutine, call and result -/
def after (eff : C → S → α × S) (s0 : S) (hs : List (Nat × C × α)) : S := hs.foldl (fun s h => (eff h.2.1 s).2) s0

/-- The history `hs` is that of calls made one after the other from `s0` on, ending in `s`: each goroutine asks for what `ask` says, and each result is what the call, made as a
whole, gives in the state the calls before it have left. -/
structure MadeInOrder (ask : Nat → List α → Option C) (eff : C → S → α × S) (s0 s : S) (hs : List (Nat × C × α)) : Prop where
  asked : ∀ k i c x, hs[k]? = some (i, c, x) → ask i (resultsOf i ((hs.take k).map fun h => (h.1, h.2.2))) = some c
  result : ∀ k i c x, hs[k]? = some (i, c, x) → x = (eff c (after eff s0 (hs.take k))).1
  final : s = after eff s0 hs

theorem madeInOrder_of {ask : Nat → List α → Option C} {eff : C → S → α × S} {divide : C → Steps S α} (hd : ∀ c s, (divide c).run s = eff c s) {s0 : S}
    {done : List (Nat × α)} {s : S} (h : OneByOne (fun i rs => (ask i rs).map divide) s0 done s) :
    ∃ hs, MadeInOrder ask eff s0 s hs ∧ done = hs.map fun h => (h.1, h.2.2) := by
  induction h with
  | start => exact ⟨[], ⟨by simp, by simp, rfl⟩, rfl⟩
  | @call done s i t _ hn ih =>
    obtain ⟨hs, hh, he⟩ := ih
    obtain ⟨c, hc, rfl⟩ := Option.map_eq_some_iff.1 hn
    rw [hd c s]
    have key : ∀ k j c' x, (hs ++ [(i, c, (eff c s).1)])[k]? = some (j, c', x) →
        (k < hs.length ∧ hs[k]? = some (j, c', x)) ∨ (k = hs.length ∧ j = i ∧ c' = c ∧ x = (eff c s).1) := by
      intro k j c' x hk
      rcases Nat.lt_or_ge k hs.length with hlt | hge
      · rw [List.getElem?_append_left hlt] at hk
        exact .inl ⟨hlt, hk⟩
      · rw [List.getElem?_append_right hge] at hk
        rcases Nat.eq_or_lt_of_le hge with heq | hlt
        · subst heq
          simp only [Nat.sub_self, List.getElem?_cons_zero, Option.some.injEq, Prod.mk.injEq] at hk
          exact .inr ⟨rfl, hk.1.symm, hk.2.1.symm, hk.2.2.symm⟩
        · rw [List.getElem?_eq_none (by simp; omega)] at hk
          cases hk
    refine ⟨hs ++ [(i, c, (eff c s).1)], ⟨?_, ?_, ?_⟩, by simp [he]⟩
    · intro k j c' x hk
      rcases key k j c' x hk with ⟨hlt, hk⟩ | ⟨rfl, rfl, rfl, _⟩
      · rw [List.take_append_of_le_length (Nat.le_of_lt hlt)]
        exact hh.asked k j c' x hk
      · rw [List.take_left, ← he]
        exact hc
    · intro k j c' x hk
      rcases key k j c' x hk with ⟨hlt, hk⟩ | ⟨rfl, rfl, rfl, hx⟩
      · rw [List.take_append_of_le_length (Nat.le_of_lt hlt)]
        exact hh.result k j c' x hk
      · rw [List.take_left, ← hh.final]
        exact hx
    · rw [after, List.foldl_append, show hs.foldl (fun s h => (eff h.2.1 s).2) s0 = s from hh.final.symm]
      rfl

theorem after_runOps {W : Type} (net : Net W) (b0 : Brokers W) (hs : List (Nat × Int32 × Except Err (Nat × Int32))) :
    after (fun n b => Brokers.getBroker net n b) b0 hs = runOps net (hs.map fun h => .get h.2.1) b0 := by
  induction hs generalizing b0 with
  | nil => rfl
  | cons h hs ih => exact ih _

/-- **C159** with C33: any number of goroutines look brokers up with `GetBroker`, which nodes depending on what they got.  However the steps of the look-ups interleave, whenever
nobody is inside one: all successful look-ups of one node have returned the same object, and at most one object is kept for a node. -/
theorem C159_lookups {W : Type} (net : Net W) (ask : Nat → List (Except Err (Nat × Int32)) → Option Int32)
    (divide : Int32 → Steps (Brokers W) (Except Err (Nat × Int32))) (hd : ∀ n b, (divide n).run b = Brokers.getBroker net n b)
    (b0 : Brokers W) (hb : b0.cache.keys.Nodup) (as : List MutexAct) (w : Mutexed (Brokers W) (Except Err (Nat × Int32)))
    (h : Mutexed.run (fun i rs => (ask i rs).map divide) (fun _ => false) as { shared := b0 } = some w) (hn : ∀ i, w.inside i = none) :
    w.shared.cache.keys.Nodup ∧
    ∃ hs, MadeInOrder ask (fun n b => Brokers.getBroker net n b) b0 w.shared hs ∧ (w.returned = hs.map fun h => (h.1, h.2.2)) ∧
      ∀ (k l i j : Nat) (n : Int32) (x y : Nat × Int32), hs[k]? = some (i, n, Except.ok x) → hs[l]? = some (j, n, Except.ok y) → x = y := by
  obtain ⟨hs, hh, he⟩ := madeInOrder_of hd ((C159_serial _ _ b0 as w h).2 hn)
  refine ⟨?_, hs, hh, he, ?_⟩
  · rw [hh.final, after_runOps]
    exact C33_one net b0 hb _
  · have key : ∀ (k l i j : Nat) (n : Int32) (x y : Nat × Int32), k < l → hs[k]? = some (i, n, .ok x) → hs[l]? = some (j, n, .ok y) → x = y := by
      intro k l i j n x y hkl hk hl
      have h1 := hh.result k i n _ hk
      have h2 := hh.result l j n _ hl
      have hsplit : hs.take l = hs.take k ++ (i, n, .ok x) :: (hs.take l).drop (k + 1) := by
        have hkt : (hs.take l)[k]? = some (i, n, .ok x) := by rw [List.getElem?_take_of_lt hkl, hk]
        obtain ⟨hlen, hget⟩ := List.getElem?_eq_some_iff.1 hkt
        conv_lhs => rw [← List.take_append_drop k (hs.take l)]
        rw [List.take_take, Nat.min_eq_left (Nat.le_of_lt hkl), List.drop_eq_getElem_cons hlen, hget]
      have hafter : ∀ pre post : List (Nat × Int32 × Except Err (Nat × Int32)), after (fun n b => Brokers.getBroker net n b) b0 (pre ++ (i, n, .ok x) :: post) =
          after (fun n b => Brokers.getBroker net n b) (Brokers.getBroker net n (after (fun n b => Brokers.getBroker net n b) b0 pre)).2 post := by
        intro pre post
        rw [after, List.foldl_append]
        rfl
      rw [hsplit, hafter, after_runOps] at h2
      have h3 := C33_same net n _ _ x (Prod.ext h1.symm rfl) (((hs.take l).drop (k + 1)).map fun h => .get h.2.1)
      rw [h3] at h2
      exact (Except.ok.inj h2).symm
    intro k l i j n x y hk hl
    rcases Nat.lt_trichotomy k l with hlt | rfl | hlt
    · exact key k l i j n x y hlt hk hl
    · rw [hk] at hl
      cases hl
      rfl
    · exact (key l k j i n y x hlt hl hk).symm

theorem after_spRun (max : Int) (p0 : SP) (hs : List (Nat × ProducerAct × List Produced)) :
    after (fun a p => ((SP.step max a p).log, SP.step max a p)) p0 hs = SP.run max (hs.map fun h => h.2.1) p0 := by
  induction hs generalizing p0 with
  | nil => rfl
  | cons h hs ih => exact ih _

/-- **C159** with C46 and C47: any number of goroutines, the flush timer among them, call `AddMessage`, `Flush` and `Close` of one partition producer, depending on all
that has happened before.  However the steps of the calls interleave, whenever nobody is inside a call, the messages accepted and the requests sent are those of the same calls made one after the
other.  So no request is empty or larger than the limit; and as long as nobody has called `Close`, the messages sent are the first of those accepted, each once and in the order of acceptance. -/
theorem C159_producer (max : Int) (hmax : 1 ≤ max) (mem : Nat → Bytes) (ask : Nat → List (List Produced) → Option ProducerAct)
    (hw : ∀ i rs a, ask i rs = some a → a.isWrite = false)
    (divide : ProducerAct → Steps SP (List Produced)) (hd : ∀ a p, (divide a).run p = ((SP.step max a p).log, SP.step max a p))
    (as : List MutexAct) (w : Mutexed SP (List Produced))
    (h : Mutexed.run (fun i rs => (ask i rs).map divide) (fun _ => false) as { shared := { mem } } = some w) (hn : ∀ i, w.inside i = none) :
    (∃ hs, MadeInOrder ask (fun a p => ((SP.step max a p).log, SP.step max a p)) { mem } w.shared hs ∧ w.returned = hs.map fun h => (h.1, h.2.2)) ∧
    (∀ ms r, .sent ms r ∈ w.shared.log → 1 ≤ ms.length ∧ (ms.length : Int) ≤ max) ∧
    ((∀ i rs a, ask i rs = some a → a.isClose = false) → sentIn w.shared.log <+: acceptedIn w.shared.log) := by
  obtain ⟨hs, hh, he⟩ := madeInOrder_of hd ((C159_serial _ _ _ as w h).2 hn)
  have hf : w.shared = SP.run max (hs.map fun h => h.2.1) { mem } := by rw [hh.final, after_spRun]
  refine ⟨⟨hs, hh, he⟩, ?_, ?_⟩
  · rw [hf]
    exact (C47_batches max hmax _ mem).1
  · intro hc
    have hall : ∀ (P : ProducerAct → Prop), (∀ i rs a, ask i rs = some a → P a) → ∀ a ∈ hs.map (fun h => h.2.1), P a := by
      intro P hP a ha
      obtain ⟨x, hx, rfl⟩ := List.mem_map.1 ha
      obtain ⟨k, hk⟩ := List.getElem?_of_mem hx
      exact hP _ _ _ (hh.asked k x.1 x.2.1 x.2.2 hk)
    rw [hf]
    refine (C46_once_in_order_partial max _ mem (hall _ hw) ?_).1
    intro pre a post hp
    have := hall (fun a => a.isClose = false) hc (.close a) (by rw [hp]; simp)
    cases this

/-- two goroutines add a message each, a third flushes -/
def addTwice : Nat → List (List Produced) → Option ProducerAct := fun i rs =>
  if rs = [] then (if i < 2 then some (.add none (4 + i) none) else if i = 2 then some (.flush none) else none) else none

/-- the look at the buffer and the change of it as two steps -/
def addSteps (max : Int) (a : ProducerAct) : Steps SP (List Produced) := .step id fun p => .step (fun _ => SP.step max a p) fun _ => .ret (SP.step max a p).log

example (max : Int) (a : ProducerAct) (p : SP) : (addSteps max a).run p = ((SP.step max a p).log, SP.step max a p) := rfl

example : (Mutexed.run (fun i rs => (addTwice i rs).map (addSteps 5)) (fun _ => false)
      [.lock 1, .go 1, .go 1, .go 1, .lock 0, .go 0, .go 0, .go 0, .lock 2, .go 2, .go 2, .go 2] { shared := { mem := memo } }).map (fun w => w.shared.log) =
    some [.added ⟨none, [5]⟩ none, .added ⟨none, [4]⟩ none, .sent [⟨none, [5]⟩, ⟨none, [4]⟩] none, .flushed none] := by decide +kernel

end Healer
