import Verif.Props.Consumer2

/-!
# C120, C121: stopping a partition consumer

`Stop` (simple_consumer.go:276-295) cancels the context, sets `stop` and waits until the consume loop has ended
(`LoopAt.done`).
-/

namespace Healer

/-- the steps of the consume loop -/
def ConsumerAct.ofLoop : ConsumerAct → Bool
  | .fetchFailed | .fetched _ | .noticed | .next _ | .advance | .leader _ => true
  | _ => false

/-- how many steps the loop can make at most once the consumer was told to stop -/
def LoopAt.left : LoopAt → Nat
  | .done => 0
  | .top => 1
  | .seeking => 2
  | .inner ms => 2 + 2 * ms.length
  | .sent _ ms => 3 + 2 * ms.length

theorem onError_left (e : Err) (answer : Except Err Int64) (s : SC) :
    (onError e answer s).loop.left ≤ 2 ∧ (onError e answer s).stop = s.stop ∧ (onError e answer s).cancelled = s.cancelled := by
  unfold onError
  simp only
  split
  · exact ⟨by simp [LoopAt.left], rfl, rfl⟩
  · split
    · exact ⟨by simp [LoopAt.left], rfl, rfl⟩
    · exact ⟨by simp [LoopAt.left], rfl, rfl⟩

theorem commitNext_keeps (env : ConsumerEnv) (c : CommitAt) (ok : Bool) (s : SC) :
    (commitNext env c ok s).2.loop = s.loop ∧ (commitNext env c ok s).2.stop = s.stop ∧ (commitNext env c ok s).2.cancelled = s.cancelled := by
  unfold commitNext
  cases c with
  | start => simp only; split <;> exact ⟨rfl, rfl, rfl⟩
  | differs => exact ⟨rfl, rfl, rfl⟩
  | read o =>
    simp only
    split
    · exact ⟨rfl, rfl, rfl⟩
    · exact ⟨rfl, rfl, rfl⟩
    · split <;> exact ⟨rfl, rfl, rfl⟩
  | checked o => exact ⟨rfl, rfl, rfl⟩
  | acknowledged o => exact ⟨rfl, rfl, rfl⟩

/-- once told to stop, the loop comes closer to its end with each of its steps, and nothing else delays it -/
theorem stopped_step (env : ConsumerEnv) (a : ConsumerAct) (s s' : SC) (hs : s.stop = true) (hc : s.cancelled = true)
    (h : s.step env a = some s') :
    s'.stop = true ∧ s'.cancelled = true ∧ s'.loop.left + (if a.ofLoop then 1 else 0) ≤ s.loop.left := by
  cases a with
  | fetchFailed =>
    rcases hl : s.loop with _ | ms | ⟨m, ms⟩ | _ | _ <;> simp only [SC.step, hl, hs, if_true] at h <;> try cases h
    exact ⟨rfl, hc, by simp [LoopAt.left, ConsumerAct.ofLoop]⟩
  | fetched ms =>
    rcases hl : s.loop with _ | ms | ⟨m, ms⟩ | _ | _ <;> simp only [SC.step, hl, hs, if_true] at h <;> cases h
  | noticed =>
    rcases hl : s.loop with _ | ms | ⟨m, ms⟩ | _ | _ <;> simp only [SC.step, hl, hc, if_true] at h <;> try cases h
    exact ⟨hs, rfl, by simp only [LoopAt.left, ConsumerAct.ofLoop, if_true]; omega⟩
  | next answer =>
    simp only [SC.step, nextMessage] at h
    rcases hl : s.loop with _ | (_ | ⟨x, ms⟩) | ⟨m, ms⟩ | _ | _ <;> simp only [hl] at h <;> try (cases h; done)
    · cases h; exact ⟨hs, hc, by simp [LoopAt.left, ConsumerAct.ofLoop]⟩
    · rcases he : x.error with _ | e
      · rcases hm : x.message with _ | m
        · simp only [he, hm] at h; cases h
        · simp only [he, hm] at h
          split at h
          · cases h; exact ⟨hs, hc, by simp only [LoopAt.left, ConsumerAct.ofLoop, if_true, List.length_cons]; omega⟩
          · split at h
            · cases h; exact ⟨hs, hc, by simp only [LoopAt.left, ConsumerAct.ofLoop, if_true, List.length_cons]; omega⟩
            · cases h
      · simp only [he] at h
        cases h
        obtain ⟨h1, h2, h3⟩ := onError_left e answer s
        refine ⟨h2.trans hs, h3.trans hc, ?_⟩
        have : (LoopAt.inner (x :: ms)).left = 2 + 2 * (ms.length + 1) := rfl
        simp only [ConsumerAct.ofLoop, if_true, this]
        omega
  | advance =>
    rcases hl : s.loop with _ | ms | ⟨m, ms⟩ | _ | _ <;> simp only [SC.step, hl] at h <;> try cases h
    exact ⟨hs, hc, by simp only [LoopAt.left, ConsumerAct.ofLoop, if_true]; omega⟩
  | leader found =>
    rcases hl : s.loop with _ | ms | ⟨m, ms⟩ | _ | _ <;> simp only [SC.step, hl, hs, true_or, if_true] at h <;> try cases h
    exact ⟨rfl, hc, by simp [LoopAt.left, ConsumerAct.ofLoop]⟩
  | receive =>
    simp only [SC.step] at h
    split at h <;> cases h
    exact ⟨hs, hc, by simp [ConsumerAct.ofLoop]⟩
  | commit =>
    simp only [SC.step] at h
    split at h <;> cases h
    exact ⟨hs, hc, by simp [ConsumerAct.ofLoop]⟩
  | commitStep i ok =>
    simp only [SC.step] at h
    split at h
    · cases h
      rename_i c _
      obtain ⟨h1, h2, h3⟩ := commitNext_keeps env c ok s
      refine ⟨h2.trans hs, h3.trans hc, ?_⟩
      simp [ConsumerAct.ofLoop, h1]
    · cases h
  | membership m g => cases h; exact ⟨hs, hc, by simp [ConsumerAct.ofLoop]⟩
  | cancel => cases h; exact ⟨hs, rfl, by simp [ConsumerAct.ofLoop]⟩
  | stop => cases h; exact ⟨rfl, hc, by simp [ConsumerAct.ofLoop]⟩

theorem stopped_run (env : ConsumerEnv) (as : List ConsumerAct) (s s' : SC) (hs : s.stop = true) (hc : s.cancelled = true)
    (h : s.run env as = some s') :
    s'.stop = true ∧ s'.cancelled = true ∧ s'.loop.left + (as.filter ConsumerAct.ofLoop).length ≤ s.loop.left := by
  induction as generalizing s with
  | nil => cases h; exact ⟨hs, hc, by simp⟩
  | cons a as ih =>
    simp only [SC.run] at h
    rcases ha : s.step env a with _ | s1
    · rw [ha] at h; cases h
    · rw [ha] at h
      obtain ⟨h1, h2, h3⟩ := stopped_step env a s s1 hs hc ha
      obtain ⟨h4, h5, h6⟩ := ih s1 h1 h2 h
      refine ⟨h4, h5, ?_⟩
      by_cases hl : a.ofLoop = true
      · simp only [hl, if_true] at h3
        simp only [List.filter_cons, hl, if_true, List.length_cons]
        omega
      · simp only [hl] at h3
        simp only [List.filter_cons, hl]
        simp only [Bool.false_eq_true, if_false] at h3 ⊢
        omega

/-- C120: once `Stop` has cancelled the context and set the flag, the consume loop, for which `Stop` waits, ends: as long as
it has not ended it can make a step, whatever the brokers, the user and the other goroutines do (or leave undone), and it
makes only a bounded number of steps. -/
theorem C120_stop_returns (env : ConsumerEnv) (s : SC) (hs : s.stop = true) (hc : s.cancelled = true) :
    (∀ as s', s.run env as = some s' → s'.loop ≠ .done → ∃ a, a.ofLoop = true ∧ (s'.step env a).isSome = true) ∧
    ∃ n, ∀ as s', s.run env as = some s' → (as.filter ConsumerAct.ofLoop).length ≤ n := by
  refine ⟨fun as s' h hd => ?_, s.loop.left, fun as s' h => ?_⟩
  · obtain ⟨h1, h2, -⟩ := stopped_run env as s s' hs hc h
    rcases hl : s'.loop with _ | ms | ⟨m, ms⟩ | _ | _
    · exact ⟨.fetchFailed, rfl, by simp [SC.step, hl, h1]⟩
    · exact ⟨.noticed, rfl, by simp [SC.step, hl, h2]⟩
    · exact ⟨.advance, rfl, by simp [SC.step, hl]⟩
    · exact ⟨.leader false, rfl, by simp [SC.step, hl]⟩
    · exact absurd hl hd
  · have := (stopped_run env as s s' hs hc h).2.2
    omega

/-- a consumer in the middle of a response, whose user does not take messages, is stopped -/
def stoppingConsumer : SC :=
  { offset := 7, fetchMaxBytes := 100, loop := .inner [⟨[], 0, none, some { offset := 7 }⟩], stop := true, cancelled := true }

example : ∃ s', stoppingConsumer.run { mode := .none, capacity := 1 } [.next (.error .eof), .advance, .noticed, .fetchFailed] = some s' ∧
    s'.loop = .done := ⟨_, rfl, rfl⟩

/-- A fetch request. -/
def Seen.isFetch : Seen → Bool
  | .fetch _ _ => true
  | _ => false

/-- A message handed over, or a request made by the consume loop. -/
def Seen.ofLoop : Seen → Bool
  | .fetch _ _ | .put _ | .lookup _ _ => true
  | _ => false

theorem commitNext_seen (env : ConsumerEnv) (c : CommitAt) (ok : Bool) (s : SC) :
    (commitNext env c ok s).2.log.filter Seen.ofLoop = s.log.filter Seen.ofLoop := by
  unfold commitNext
  cases c with
  | start => simp only; split <;> rfl
  | differs => rfl
  | read o =>
    simp only
    split
    · rfl
    · simp [Seen.ofLoop]
    · split <;> rfl
  | checked o => simp [Seen.ofLoop]
  | acknowledged o => rfl

theorem done_step (env : ConsumerEnv) (a : ConsumerAct) (s s' : SC) (hd : s.loop = .done) (h : s.step env a = some s') :
    s'.loop = .done ∧ s'.log.filter Seen.ofLoop = s.log.filter Seen.ofLoop ∧ (s.stop = true → s'.stop = true) := by
  cases a with
  | fetchFailed => simp [SC.step, hd] at h
  | fetched ms => simp [SC.step, hd] at h
  | noticed => simp [SC.step, hd] at h
  | next answer => simp [SC.step, nextMessage, hd] at h
  | advance => simp [SC.step, hd] at h
  | leader found => simp [SC.step, hd] at h
  | receive =>
    simp only [SC.step] at h
    split at h <;> cases h
    exact ⟨hd, by simp [Seen.ofLoop], id⟩
  | commit =>
    simp only [SC.step] at h
    split at h <;> cases h
    exact ⟨hd, rfl, id⟩
  | commitStep i ok =>
    simp only [SC.step] at h
    split at h
    · cases h
      rename_i c _
      obtain ⟨h1, h2, h3⟩ := commitNext_keeps env c ok s
      exact ⟨h1.trans hd, commitNext_seen env c ok s, fun hs => h2.trans hs⟩
    · cases h
  | membership m g => cases h; exact ⟨hd, by simp [Seen.ofLoop], id⟩
  | cancel => cases h; exact ⟨hd, rfl, id⟩
  | stop => cases h; exact ⟨hd, rfl, fun _ => rfl⟩

/-- C121: when `Stop` has waited for the end of the loop, the consumer fetches nothing more, hands no more messages over, and asks for no
positions. -/
theorem C121_silent_after_stop (env : ConsumerEnv) (as : List ConsumerAct) (s s' : SC) (hd : s.loop = .done)
    (h : s.run env as = some s') : s'.log.filter Seen.ofLoop = s.log.filter Seen.ofLoop := by
  induction as generalizing s with
  | nil => cases h; rfl
  | cons a as ih =>
    simp only [SC.run] at h
    rcases ha : s.step env a with _ | s1
    · rw [ha] at h; cases h
    · rw [ha] at h
      obtain ⟨h1, h2, -⟩ := done_step env a s s1 hd ha
      rw [ih s1 h1 h, h2]

theorem stop_fetches (env : ConsumerEnv) (a : ConsumerAct) (s s' : SC) (hs : s.stop = true) (h : s.step env a = some s') :
    s'.stop = true ∧ s'.log.filter Seen.isFetch = s.log.filter Seen.isFetch := by
  cases a with
  | fetchFailed =>
    rcases hl : s.loop with _ | ms | ⟨m, ms⟩ | _ | _ <;> simp only [SC.step, hl, hs, if_true] at h <;> try cases h
    exact ⟨rfl, rfl⟩
  | fetched ms =>
    rcases hl : s.loop with _ | ms | ⟨m, ms⟩ | _ | _ <;> simp only [SC.step, hl, hs, if_true] at h <;> cases h
  | noticed =>
    rcases hl : s.loop with _ | ms | ⟨m, ms⟩ | _ | _ <;> simp only [SC.step, hl] at h <;> try (cases h; done)
    split at h <;> cases h
    exact ⟨hs, rfl⟩
  | next answer =>
    simp only [SC.step, nextMessage] at h
    rcases hl : s.loop with _ | (_ | ⟨x, ms⟩) | ⟨m, ms⟩ | _ | _ <;> simp only [hl] at h <;> try (cases h; done)
    · cases h; exact ⟨hs, rfl⟩
    · rcases he : x.error with _ | e
      · rcases hm : x.message with _ | m
        · simp only [he, hm] at h; cases h
        · simp only [he, hm, putSeen] at h
          split at h
          · cases h; exact ⟨hs, by simp [Seen.isFetch]⟩
          · split at h
            · cases h; exact ⟨hs, by simp [Seen.isFetch]⟩
            · cases h
      · simp only [he] at h
        cases h
        refine ⟨(onError_left e answer s).2.1.trans hs, ?_⟩
        unfold onError
        simp only
        split
        · simp [Seen.isFetch]
        · split <;> rfl
  | advance =>
    rcases hl : s.loop with _ | ms | ⟨m, ms⟩ | _ | _ <;> simp only [SC.step, hl] at h <;> try cases h
    exact ⟨hs, rfl⟩
  | leader found =>
    rcases hl : s.loop with _ | ms | ⟨m, ms⟩ | _ | _ <;> simp only [SC.step, hl, hs, true_or, if_true] at h <;> try cases h
    exact ⟨rfl, rfl⟩
  | receive =>
    simp only [SC.step] at h
    split at h <;> cases h
    exact ⟨hs, by simp [Seen.isFetch]⟩
  | commit =>
    simp only [SC.step] at h
    split at h <;> cases h
    exact ⟨hs, rfl⟩
  | commitStep i ok =>
    simp only [SC.step] at h
    split at h
    · cases h
      rename_i c _
      refine ⟨(commitNext_keeps env c ok s).2.1.trans hs, ?_⟩
      have := congrArg (List.filter Seen.isFetch) (commitNext_seen env c ok s)
      simp only [List.filter_filter] at this
      have key : ∀ l : List Seen, l.filter (fun a => Seen.isFetch a && Seen.ofLoop a) = l.filter Seen.isFetch := fun l =>
        List.filter_congr fun a _ => by cases a <;> rfl
      rw [key, key] at this
      exact this
    · cases h
  | membership m g => cases h; exact ⟨hs, by simp [Seen.isFetch]⟩
  | cancel => cases h; exact ⟨hs, rfl⟩
  | stop => cases h; exact ⟨rfl, rfl⟩

/-- C121: from the moment the flag is set and the loop is not between reading it and sending a fetch (which is one step here), no
fetch request is sent.  What is missing: a fetch of a loop that has just read the flag (`C121_one_fetch_partial`,
`C121_violated_every_check` in Props/Starting.lean). -/
theorem C121_no_fetch_partial (env : ConsumerEnv) (as : List ConsumerAct) (s s' : SC) (hs : s.stop = true)
    (h : s.run env as = some s') : s'.log.filter Seen.isFetch = s.log.filter Seen.isFetch := by
  induction as generalizing s with
  | nil => cases h; rfl
  | cons a as ih =>
    simp only [SC.run] at h
    rcases ha : s.step env a with _ | s1
    · rw [ha] at h; cases h
    · rw [ha] at h
      obtain ⟨h1, h2⟩ := stop_fetches env a s s1 hs ha
      rw [ih s1 h1 h, h2]

example : ∃ s', stoppingConsumer.run { mode := .none, capacity := 1 } [.next (.error .eof), .advance, .receive, .noticed, .fetchFailed] = some s' ∧
    s'.log.length = 2 := ⟨_, rfl, rfl⟩

end Healer
