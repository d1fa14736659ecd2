import Verif.Model.Pace

/-!
# C173: failures are not retried without a pause

A consumer whose requests are refused waits `retry.backoff.ms` before it repeats them.
-/

namespace Healer

/-! ## Specification -/

/-- Every request that is not answered is followed by a pause. -/
def UnansweredPaused (tr : List Pace) : Prop :=
  ∀ pre post, tr = pre ++ .ask :: post → ∃ rest, post = .answer :: rest ∨ post = .pause :: rest

def fetchesIn : List Seen → Nat
  | [] => 0
  | .fetch _ _ :: l => fetchesIn l + 1
  | _ :: l => fetchesIn l

/-- The requests by which a group consumer joins. -/
def GroupReq.joins : GroupReq → Bool
  | .heartbeat _ _ _ | .commit _ _ _ => false
  | _ => true

/-- Errors that tell a member to join again: illegal generation, unknown member id, rebalance in progress. -/
def asksToRejoin (e : Err) : Bool := e.is (.kafka 22) || e.is (.kafka 25) || e.is (.kafka 27)

/-- Every request for joining that failed is followed by a pause, except for the errors that tell to join again. -/
def FailuresPaused (l : List GroupSeen) : Prop :=
  ∀ pre q e post, l = pre ++ .exchange q (.failed e) :: post → q.joins = true → asksToRejoin e = false →
    ∃ rest, post = .pause :: rest

/-! ## The partition consumer -/

theorem fetchesIn_append (a b : List Seen) : fetchesIn (a ++ b) = fetchesIn a + fetchesIn b := by
  induction a with
  | nil => simp [fetchesIn]
  | cons x a ih => cases x <;> simp [fetchesIn, ih] <;> omega

theorem split_append {α : Type} {l x pre post : List α} {y : α} (h : l ++ x = pre ++ y :: post) :
    (∃ m, l = pre ++ y :: m ∧ post = m ++ x) ∨ ∃ m, pre = l ++ m ∧ x = m ++ y :: post := by
  induction l generalizing pre with
  | nil => exact .inr ⟨pre, rfl, h⟩
  | cons z l ih =>
    cases pre with
    | nil =>
      simp only [List.cons_append, List.nil_append, List.cons.injEq] at h
      obtain ⟨rfl, rfl⟩ := h
      exact .inl ⟨l, rfl, rfl⟩
    | cons w pre =>
      simp only [List.cons_append, List.cons.injEq] at h
      obtain ⟨rfl, h⟩ := h
      rcases ih h with ⟨m, rfl, rfl⟩ | ⟨m, rfl, rfl⟩
      · exact .inl ⟨m, rfl, rfl⟩
      · exact .inr ⟨m, rfl, rfl⟩

theorem UnansweredPaused.append {a b : List Pace} (ha : UnansweredPaused a) (hb : UnansweredPaused b) : UnansweredPaused (a ++ b) := by
  intro pre post h
  rcases split_append h with ⟨m, h1, rfl⟩ | ⟨m, rfl, h2⟩
  · obtain ⟨rest, hr | hr⟩ := ha _ _ h1
    · exact ⟨rest ++ b, .inl (by rw [hr]; rfl)⟩
    · exact ⟨rest ++ b, .inr (by rw [hr]; rfl)⟩
  · exact hb _ _ h2

theorem unansweredPaused_pace (a : ConsumerAct) (s : SC) : UnansweredPaused (s.pace a) := by
  have h1 : UnansweredPaused [] := by intro pre post h; cases pre <;> cases h
  have h2 : UnansweredPaused [.ask, .pause] := by
    intro pre post h
    match pre, h with
    | [], h => cases h; exact ⟨[], .inr rfl⟩
    | [_], h => cases h
    | _ :: _ :: pre, h => cases pre <;> cases h
  have h3 : UnansweredPaused [.ask, .answer] := by
    intro pre post h
    match pre, h with
    | [], h => cases h; exact ⟨[], .inl rfl⟩
    | [_], h => cases h
    | _ :: _ :: pre, h => cases pre <;> cases h
  have h4 : UnansweredPaused [.pause] := by
    intro pre post h
    match pre, h with
    | [], h => cases h
    | _ :: pre, h => cases pre <;> cases h
  unfold SC.pace
  split
  · split
    · exact h1
    · exact h2
  · exact h3
  · split
    · exact h1
    · exact h4
  · exact h1

theorem fetches_onError (e : Err) (answer : Except Err Int64) (s : SC) : fetchesIn (onError e answer s).log = fetchesIn s.log := by
  unfold onError
  dsimp only
  split
  · simp [fetchesIn_append, fetchesIn]
  · split <;> rfl

theorem fetches_next {env : ConsumerEnv} {answer : Except Err Int64} {s t : SC} (h : nextMessage env answer s = some t) :
    fetchesIn t.log = fetchesIn s.log := by
  have hp : ∀ m, fetchesIn (putSeen env m) = 0 := by
    intro m; unfold putSeen; split <;> rfl
  unfold nextMessage at h
  split at h
  · cases h; rfl
  · split at h
    · cases h; exact fetches_onError _ _ _
    · cases h
    · split at h
      · cases h; simp [fetchesIn_append, hp]
      · split at h
        · cases h; simp [fetchesIn_append, hp]
        · cases h
  · cases h

theorem fetches_commit (env : ConsumerEnv) (c : CommitAt) (ok : Bool) (s : SC) :
    fetchesIn (commitNext env c ok s).2.log = fetchesIn s.log := by
  unfold commitNext
  split
  · split <;> rfl
  · rfl
  · split
    · rfl
    · simp [fetchesIn_append, fetchesIn]
    · split <;> rfl
  · simp [fetchesIn_append, fetchesIn]
  · rfl

theorem fetches_step {env : ConsumerEnv} {a : ConsumerAct} {s t : SC} (h : s.step env a = some t) :
    fetchesIn t.log = fetchesIn s.log + (s.pace a).count .ask := by
  unfold SC.step at h
  cases a with
  | fetchFailed =>
    dsimp only at h
    cases hl : s.loop <;> rw [hl] at h <;> dsimp only at h <;> try (cases h; done)
    by_cases hs : s.stop = true
    · rw [if_pos hs] at h; cases h; simp [SC.pace, hl, hs]
    · rw [if_neg hs] at h; cases h; simp [SC.pace, hl, hs, fetchesIn_append, fetchesIn]
  | fetched ms =>
    dsimp only at h
    cases hl : s.loop <;> rw [hl] at h <;> dsimp only at h <;> try (cases h; done)
    by_cases hs : s.stop = true
    · rw [if_pos hs] at h; cases h
    · rw [if_neg hs] at h; cases h; simp [SC.pace, hl, fetchesIn_append, fetchesIn]
  | noticed =>
    dsimp only at h
    cases hl : s.loop <;> rw [hl] at h <;> dsimp only at h <;> try (cases h; done)
    split at h <;> cases h
    simp [SC.pace]
  | next answer => rw [fetches_next h]; simp [SC.pace]
  | advance =>
    dsimp only at h
    cases hl : s.loop <;> rw [hl] at h <;> dsimp only at h <;> try (cases h; done)
    cases h; simp [SC.pace]
  | leader found =>
    dsimp only at h
    cases hl : s.loop <;> rw [hl] at h <;> dsimp only at h <;> try (cases h; done)
    by_cases hs : s.stop = true ∨ found = true
    · rw [if_pos hs] at h; cases h; simp [SC.pace, hl, hs]
    · rw [if_neg hs] at h; cases h; simp [SC.pace, hl, hs]
  | receive =>
    dsimp only at h
    split at h <;> cases h
    simp [SC.pace, fetchesIn_append, fetchesIn]
  | commit =>
    dsimp only at h
    split at h <;> cases h
    simp [SC.pace]
  | commitStep i ok =>
    dsimp only at h
    split at h <;> cases h
    simp [SC.pace, fetches_commit]
  | membership m g => cases h; simp [SC.pace, fetchesIn_append, fetchesIn]
  | cancel => cases h; simp [SC.pace]
  | stop => cases h; simp [SC.pace]

/-- Whatever a consumer meets, in all schedules: a fetch request that gets no answer is followed by a pause before the next
one, so a broker that cannot be reached is not asked in a tight loop.  (Part of the claim; what is missing are requests that
are answered with an error.) -/
theorem C173_unanswered_partial (env : ConsumerEnv) (as : List ConsumerAct) (s t : SC) (tr : List Pace)
    (h : SC.paces env as s = some (tr, t)) :
    UnansweredPaused tr ∧ fetchesIn t.log = fetchesIn s.log + tr.count .ask ∧ SC.run env as s = some t := by
  induction as generalizing s tr with
  | nil =>
    cases h
    exact ⟨(by intro pre post h; cases pre <;> cases h), by simp, rfl⟩
  | cons a as ih =>
    unfold SC.paces at h
    cases hs : s.step env a with
    | none => rw [hs] at h; cases h
    | some u =>
      rw [hs] at h
      dsimp only at h
      cases hr : SC.paces env as u with
      | none => rw [hr] at h; cases h
      | some r =>
        rw [hr] at h
        cases h
        obtain ⟨h1, h2, h3⟩ := ih u r.1 (by rw [hr])
        refine ⟨(unansweredPaused_pace a s).append h1, ?_, ?_⟩
        · rw [h2, fetches_step hs, List.count_append]; omega
        · unfold SC.run; rw [hs]; exact h3

/-- A fetch request is answered with an error (`C17_broker_error`: every error code of a partition gives such an answer), the
consumer deals with it, and finds a leader if it looks for one.  `answer` is what it gets if it asks for a position. -/
def refusedWith (e : Err) (answer : Except Err Int64) : List ConsumerAct :=
  .fetched [⟨[], -1, some e, none⟩] :: .next answer :: (if !e.is (.kafka 1) && e.is (.kafka 6) then [.leader true] else [])

theorem paces_append (env : ConsumerEnv) (as bs : List ConsumerAct) {s t u : SC} {x y : List Pace}
    (h1 : SC.paces env as s = some (x, t)) (h2 : SC.paces env bs t = some (y, u)) : SC.paces env (as ++ bs) s = some (x ++ y, u) := by
  induction as generalizing s x with
  | nil => cases h1; exact h2
  | cons a as ih =>
    simp only [SC.paces, List.cons_append] at h1 ⊢
    cases hs : s.step env a with
    | none => rw [hs] at h1; cases h1
    | some v =>
      rw [hs] at h1
      dsimp only at h1 ⊢
      cases hr : SC.paces env as v with
      | none => rw [hr] at h1; cases h1
      | some r =>
        rw [hr] at h1
        cases h1
        rw [ih (x := r.1) (by rw [hr])]
        simp

theorem paces_refused (env : ConsumerEnv) (e : Err) (answer : Except Err Int64) (s : SC) (ht : s.loop = .top) (hs : s.stop = false) :
    ∃ t, SC.paces env (refusedWith e answer) s = some ([.ask, .answer], t) ∧ t.loop = .top ∧ t.stop = false := by
  obtain ⟨stop, cancelled, offset, oc, fb, fm, loop, commits, queue, mid, gid, log⟩ := s
  subst ht hs
  unfold refusedWith
  by_cases h1 : e.is (.kafka 1) = true
  · simp [h1, SC.paces, SC.step, SC.pace, nextMessage, onError]
  · by_cases h6 : e.is (.kafka 6) = true
    · simp [h1, h6, SC.paces, SC.step, SC.pace, nextMessage, onError]
    · simp [h1, h6, SC.paces, SC.step, SC.pace, nextMessage, onError]

/-- A consumer whose fetch requests are answered with errors, any errors and any number of them, asks again without a single
pause, from whatever state. -/
theorem C173_violated_every_error (env : ConsumerEnv) (es : List (Err × Except Err Int64)) (s : SC) (ht : s.loop = .top)
    (hs : s.stop = false) :
    ∃ t, SC.paces env (es.flatMap fun e => refusedWith e.1 e.2) s = some ((es.flatMap fun _ => [.ask, .answer]), t) ∧
      fetchesIn t.log = fetchesIn s.log + es.length ∧ t.loop = .top := by
  have main : ∀ (es : List (Err × Except Err Int64)) (s : SC), s.loop = .top → s.stop = false →
      ∃ t, SC.paces env (es.flatMap fun e => refusedWith e.1 e.2) s = some ((es.flatMap fun _ => [.ask, .answer]), t) ∧ t.loop = .top := by
    intro es
    induction es with
    | nil => intro s ht hs; exact ⟨s, rfl, ht⟩
    | cons e es ih =>
      intro s ht hs
      obtain ⟨u, h1, h2, h3⟩ := paces_refused env e.1 e.2 s ht hs
      obtain ⟨t, h4, h5⟩ := ih u h2 h3
      exact ⟨t, paces_append env _ _ h1 h4, h5⟩
  obtain ⟨t, h1, h2⟩ := main es s ht hs
  refine ⟨t, h1, ?_, h2⟩
  rw [(C173_unanswered_partial env _ s t _ h1).2.1]
  have : ∀ es : List (Err × Except Err Int64), (es.flatMap fun _ => [Pace.ask, Pace.answer]).count .ask = es.length := by
    intro es
    induction es with
    | nil => rfl
    | cons e es ih => rw [List.flatMap_cons, List.count_append, ih, List.length_cons, Nat.add_comm]; rfl
  rw [this]

/-! ## The group consumer -/

theorem FailuresPaused.append {a b : List GroupSeen} (ha : FailuresPaused a) (hb : FailuresPaused b) : FailuresPaused (a ++ b) := by
  intro pre q e post h hq he
  rcases split_append h with ⟨m, h1, rfl⟩ | ⟨m, rfl, h2⟩
  · obtain ⟨rest, hr⟩ := ha _ _ _ _ h1 hq he
    exact ⟨rest ++ b, by rw [hr]; rfl⟩
  · exact hb _ _ _ _ h2 hq he

theorem failuresPaused_nil : FailuresPaused [] := by
  intro pre q e post h; cases pre <;> cases h

theorem failuresPaused_one {q : GroupReq} {a : GroupAns} (h : ∀ e, a = .failed e → q.joins = true → asksToRejoin e = true) :
    FailuresPaused [.exchange q a] := by
  intro pre q' e post hl hq he
  match pre, hl with
  | [], hl =>
    cases hl
    rw [h e rfl hq] at he; cases he
  | _ :: pre, hl => cases pre <;> cases hl

theorem failuresPaused_two (q : GroupReq) (a : GroupAns) : FailuresPaused [.exchange q a, .pause] := by
  intro pre q' e post hl hq he
  match pre, hl with
  | [], hl => cases hl; exact ⟨[], rfl⟩
  | [_], hl => cases hl
  | _ :: _ :: pre, hl => cases pre <;> cases hl

/-- What a step adds to the history. -/
def Adds (s t : Membership) : Prop := s.closed = t.closed ∧ ∃ x, t.log = s.log ++ x ∧ (t.closed = false → FailuresPaused x)

theorem top_pace (s : Membership) : s.top.closed = s.closed ∧ s.top.log = s.log := by
  unfold Membership.top
  split
  · exact ⟨rfl, rfl⟩
  · split <;> exact ⟨rfl, rfl⟩

theorem retry_adds (e : Err) (s : Membership) :
    (s.retry e).closed = s.closed ∧ (s.retry e).log = s.log ++ (if asksToRejoin e then [] else [.pause]) := by
  unfold Membership.retry asksToRejoin
  split
  · rename_i h
    exact ⟨(top_pace s).1, by rw [(top_pace s).2]; simp⟩
  · rename_i h
    exact ⟨(top_pace _).1, by rw [(top_pace _).2]; simp [Membership.note]⟩

theorem failed_then_retry (q : GroupReq) (e : Err) : FailuresPaused (.exchange q (.failed e) :: (if asksToRejoin e then [] else [.pause])) := by
  by_cases h : asksToRejoin e = true
  · rw [if_pos h]; exact failuresPaused_one fun e' he _ => by cases he; exact h
  · rw [if_neg h]; exact failuresPaused_two _ _

theorem answer_adds {s t : Membership} {a : GroupAns} (h : s.step (.answer a) = some t) : Adds s t := by
  simp only [Membership.step] at h
  cases hp : s.pos <;> rw [hp] at h <;> dsimp only at h
  · unfold Membership.afterFind at h
    cases a <;> dsimp only at h <;> try (cases h; done)
    · cases h
      refine ⟨(by rw [(top_pace _).1]; rfl), [.exchange .find (.found _)], by rw [(top_pace _).2]; rfl, fun _ => ?_⟩
      exact failuresPaused_one fun e he => by cases he
    · cases h
      exact ⟨(by rw [(top_pace _).1]; rfl), [.exchange .find (.failed _), .pause], by rw [(top_pace _).2]; rfl, fun _ => failuresPaused_two _ _⟩
  · unfold Membership.afterJoin at h
    cases a <;> dsimp only at h <;> try (cases h; done)
    · rename_i r
      cases h
      refine ⟨?_, [.exchange (.join s.node s.memberID) (.joined r)], ?_, fun _ => failuresPaused_one fun e he => by cases he⟩
      · unfold Membership.proceed
        split
        · exact (by rw [(top_pace _).1]; rfl)
        · split <;> rfl
      · unfold Membership.proceed
        split
        · rw [(top_pace _).2]; rfl
        · split <;> rfl
    · rename_i e
      cases h
      by_cases hc : s.closed = true
      · have hc' : (Membership.refuse e (s.note [.exchange (.join s.node s.memberID) (.failed e)])).closed = true := hc
        rw [if_pos hc']
        refine ⟨(by rw [(top_pace _).1]; rfl), _, by rw [(top_pace _).2]; rfl, fun hf => ?_⟩
        rw [(top_pace _).1, hc'] at hf; cases hf
      · have hc' : ¬ (Membership.refuse e (s.note [.exchange (.join s.node s.memberID) (.failed e)])).closed = true := hc
        rw [if_neg hc']
        refine ⟨(by rw [(retry_adds _ _).1]; rfl), .exchange (.join s.node s.memberID) (.failed e) :: (if asksToRejoin e then [] else [.pause]), ?_,
          fun _ => failed_then_retry _ _⟩
        rw [(retry_adds _ _).2]
        simp [Membership.refuse, Membership.note]
  · unfold Membership.afterMetadata at h
    cases a <;> dsimp only at h <;> try (cases h; done)
    · cases h
      exact ⟨rfl, [.exchange .metadata (.topics _)], rfl, fun _ => failuresPaused_one fun e he => by cases he⟩
    · rename_i e
      cases h
      refine ⟨?_, [.exchange .metadata (.failed e), .pause], ?_, fun _ => failuresPaused_two _ _⟩
      · split <;> rfl
      · split <;> rfl
  · unfold Membership.afterSync at h
    dsimp only at h
    split at h
    · cases h
      exact ⟨rfl, [.exchange _ (.synced true)], rfl, fun _ => failuresPaused_one fun e he => by cases he⟩
    · cases h
      refine ⟨(by rw [(retry_adds _ _).1]; rfl), .exchange (.sync s.node s.generationID s.memberID (if s.ifLeader then some (s.members, s.topics) else none)) (.synced false) :: [.pause], ?_, fun _ => failuresPaused_two _ _⟩
      rw [(retry_adds _ _).2]
      have : asksToRejoin (.wrapped (.other "assignment")) = false := by decide
      rw [this]
      simp [Membership.note]
    · rename_i e
      cases h
      refine ⟨(by rw [(retry_adds _ _).1]; rfl),
        .exchange (.sync s.node s.generationID s.memberID (if s.ifLeader then some (s.members, s.topics) else none)) (.failed e) :: (if asksToRejoin e then [] else [.pause]), ?_, fun _ => failed_then_retry _ _⟩
      rw [(retry_adds _ _).2]
      simp [Membership.unsynced, Membership.note]
    · cases h
  · cases h

theorem step_adds {s t : Membership} {a : RejoinAct} (h : s.step a = some t) : (t.closed = false → s.closed = false) ∧
    ∃ x, t.log = s.log ++ x ∧ (t.closed = false → FailuresPaused x) := by
  cases a with
  | answer a =>
    obtain ⟨h1, h2⟩ := answer_adds h
    exact ⟨fun hf => h1.trans hf, h2⟩
  | heartbeat a =>
    simp only [Membership.step] at h
    split at h
    · cases a <;> dsimp only at h <;> try (cases h; done)
      · cases h
        exact ⟨id, [.exchange _ .fine], rfl, fun _ => failuresPaused_one fun e he => by cases he⟩
      · rename_i e
        cases h
        refine ⟨fun hf => ?_, [.exchange (.heartbeat s.node s.generationID s.memberID) (.failed e)], ?_,
          fun _ => failuresPaused_one fun e he hq => by cases hq⟩
        · unfold Membership.again at hf
          rw [(top_pace _).1] at hf; exact hf
        · unfold Membership.again
          rw [(top_pace _).2]; rfl
    · cases h
  | commit a =>
    simp only [Membership.step] at h
    split at h
    · cases h
      exact ⟨id, [], by simp, fun _ => failuresPaused_nil⟩
    · cases a <;> dsimp only at h <;> try (cases h; done)
      · cases h
        exact ⟨id, [.exchange _ .fine], rfl, fun _ => failuresPaused_one fun e he => by cases he⟩
      · rename_i e
        cases h
        exact ⟨id, [.exchange (.commit s.node s.generationID s.memberID) (.failed e)], rfl,
          fun _ => failuresPaused_one fun e he hq => by cases hq⟩
  | restart ts =>
    simp only [Membership.step] at h
    split at h
    · cases h
      refine ⟨fun hf => ?_, [], ?_, fun _ => failuresPaused_nil⟩
      · unfold Membership.again at hf
        rw [(top_pace _).1] at hf; exact hf
      · unfold Membership.again
        rw [(top_pace _).2]; simp
    · cases h
  | close =>
    cases h
    exact ⟨(fun hf => by cases hf), [], by simp, fun _ => failuresPaused_nil⟩

/-- A group consumer that is not closed, in all schedules and whatever it is answered: after every request for joining that
failed it waits, except when the error tells it to join again.  (Part of the claim; what is missing are those errors.) -/
theorem C173_joining_partial (as : List RejoinAct) (s t : Membership) (h : Membership.run as s = some t) (hc : t.closed = false)
    (h0 : FailuresPaused s.log) : FailuresPaused t.log := by
  have main : ∀ (as : List RejoinAct) (s : Membership), Membership.run as s = some t →
      s.closed = false ∧ ∃ x, t.log = s.log ++ x ∧ FailuresPaused x := by
    intro as
    induction as with
    | nil => intro s h; cases h; exact ⟨hc, [], by simp, failuresPaused_nil⟩
    | cons a as ih =>
      intro s h
      simp only [Membership.run] at h
      cases hs : s.step a with
      | none => rw [hs] at h; cases h
      | some u =>
        rw [hs] at h
        obtain ⟨h1, x, h2, h3⟩ := ih u h
        obtain ⟨h4, y, h5, h6⟩ := step_adds hs
        exact ⟨h4 h1, y ++ x, by rw [h2, h5, List.append_assoc], (h6 h1).append h3⟩
  obtain ⟨_, x, h1, h2⟩ := main as s h
  rw [h1]
  exact h0.append h2

theorem C173_joining_start_partial (as : List RejoinAct) (t : Membership) (h : Membership.run as {} = some t) (hc : t.closed = false) :
    FailuresPaused t.log :=
  C173_joining_partial as {} t h hc failuresPaused_nil

/-- A coordinator that answers every join request with one of the three codes that tell to join again, in any order: the
consumer repeats the request each time without a pause, from whatever state. -/
theorem C173_violated_every_rejoin (cs : List Int16) (hk : ∀ c ∈ cs, c = 22 ∨ c = 25 ∨ c = 27) (s : Membership) (hp : s.pos = .joining)
    (hc : s.closed = false) (ha : s.available = true) :
    ∃ t x, Membership.run (cs.map fun c => .answer (.failed (.kafka c))) s = some t ∧ t.pos = .joining ∧ t.log = s.log ++ x ∧
      x.length = cs.length ∧ ∀ y ∈ x, ∃ m c, y = .exchange (.join s.node m) (.failed (.kafka c)) := by
  induction cs generalizing s with
  | nil => exact ⟨s, [], rfl, hp, by simp, rfl, fun y hy => by cases hy⟩
  | cons c cs ih =>
    have one : ∃ u, s.step (.answer (.failed (.kafka c))) = some u ∧ u.pos = .joining ∧ u.closed = false ∧ u.available = true ∧
        u.node = s.node ∧ u.log = s.log ++ [.exchange (.join s.node s.memberID) (.failed (.kafka c))] := by
      obtain ⟨pos, closed, joined, available, node, memberID, generationID, ifLeader, members, topics, log⟩ := s
      simp only at hp hc ha
      subst hp hc ha
      have e1 : joinLoses (.kafka 22) = false := by decide
      have e2 : joinLoses (.kafka 25) = false := by decide
      have e3 : joinLoses (.kafka 27) = false := by decide
      rcases hk c List.mem_cons_self with rfl | rfl | rfl <;>
        simp [Membership.step, Membership.afterJoin, Membership.note, Membership.refuse, Membership.retry, Membership.top, e1, e2, e3, Err.is]
    obtain ⟨u, h1, h2, h3, h4, h5, h6⟩ := one
    obtain ⟨t, x, g1, g2, g3, g4, g5⟩ := ih (fun d hd => hk d (List.mem_cons_of_mem _ hd)) u h2 h3 h4
    refine ⟨t, .exchange (.join s.node s.memberID) (.failed (.kafka c)) :: x, ?_, g2, by rw [g3, h6]; simp, by simp [g4], ?_⟩
    · rw [List.map_cons]
      simp only [Membership.run]
      rw [h1]
      exact g1
    · intro y hy
      rcases List.mem_cons.mp hy with rfl | hy
      · exact ⟨_, _, rfl⟩
      · rw [← h5]; exact g5 y hy

/-! ## The setting -/

/-- Nothing bounds the length of the pause: whatever number `retry.backoff.ms` is in a configuration of a producer that is valid
otherwise, the configuration is accepted and keeps the number; and the check of a consumer's does not look at it either.  With
zero or a negative number `time.Sleep` returns at once. -/
theorem C173_violated_every_backoff (ms : Int64) (c : ConsumerConfig) (p : ProducerConfig) (hp : p.checkValid = none)
    (hc : c.checkValid = none) :
    (∃ q, createProducerConfig (.config { p with retryBackOffMS := ms }) = .ok q ∧ q.retryBackOffMS = ms) ∧
    ({ c with retryBackOffMS := ms } : ConsumerConfig).checkValid = none := by
  refine ⟨?_, hc⟩
  have h : ({ p with retryBackOffMS := ms } : ProducerConfig).checkValid = none := hp
  refine ⟨({ p with retryBackOffMS := ms } : ProducerConfig).raiseMagic, ?_, ?_⟩
  · simp only [createProducerConfig, ProducerConfig.checked, h]
  · unfold ProducerConfig.raiseMagic
    split <;> rfl

example : (createProducerConfig (.config { defaultProducerConfig with bootstrapServers := "a:9092", retryBackOffMS := -5 })).toOption.map
    (fun q => q.retryBackOffMS) = some (-5) := by decide +kernel

/-! ## Cases that meet the hypotheses -/

/-- Unknown topic, three times: three requests, no pause. -/
example : ((SC.paces { mode := .none } (refusedWith (.kafka 3) (.ok 0) ++ refusedWith (.kafka 3) (.ok 0) ++ refusedWith (.kafka 6) (.ok 0))
    { offset := 5, fetchMaxBytes := 100 }).map fun r => r.1) = some [.ask, .answer, .ask, .answer, .ask, .answer] := by decide +kernel

/-- A broker that cannot be reached twice. -/
example : ((SC.paces { mode := .none } [.fetchFailed, .fetchFailed, .fetched []] { offset := 5, fetchMaxBytes := 100 }).map fun r => r.1) =
    some [.ask, .pause, .ask, .pause, .ask, .answer] := by decide +kernel

/-- A coordinator that is loading, then asks to join again. -/
example : ((Membership.run [.answer (.found 1), .answer (.failed (.kafka 14)), .answer (.failed (.kafka 25)), .answer (.failed (.kafka 25))] {}).map
    fun s => (s.log, s.pos, s.closed)) =
    some ([.exchange .find (.found 1), .exchange (.join 1 []) (.failed (.kafka 14)), .pause,
      .exchange (.join 1 []) (.failed (.kafka 25)), .exchange (.join 1 []) (.failed (.kafka 25))], .joining, false) := by decide +kernel

end Healer
