import Verif.Model.Starting
import Verif.Props.Consumer3

/-!
# C121, C122, C167: `Consume` and `Stop` at the same time
-/

namespace Healer

/-! ## Specification -/

/-- A fetch, or a message handed over. -/
def Seen.fetchOrPut : Seen → Bool
  | .fetch _ _ | .put _ => true
  | _ => false

/-- How many fetches were sent. -/
def fetchCount (l : List Seen) : Nat := (l.filter Seen.isFetch).length

/-- All of `Stop`. -/
def wholeStop : List StartAct := [.cancel, .flag, .wait]

/-! ## Lemmas -/

/-- The steps that `Starting.step` leaves to `SC.step`. -/
def ConsumerAct.isOther : ConsumerAct → Bool
  | .fetchFailed | .fetched _ | .cancel | .stop => false
  | _ => true

theorem other_step (env : ConsumerEnv) (a : ConsumerAct) (x y : Starting) (h : x.step env (.other a) = some y) :
    a.isOther = true ∧ ∃ c, x.consumer.step env a = some c ∧ y = { x with consumer := c } := by
  cases a <;> simp only [Starting.step] at h <;>
    first
    | (cases h; done)
    | (obtain ⟨c, h1, h2⟩ := Option.map_eq_some_iff.1 h; exact ⟨rfl, c, h1, h2.symm⟩)

theorem fetchOrPut_of_ofLoop {l l' : List Seen} (h : l'.filter Seen.ofLoop = l.filter Seen.ofLoop) :
    l'.filter Seen.fetchOrPut = l.filter Seen.fetchOrPut := by
  have := congrArg (List.filter Seen.fetchOrPut) h
  simp only [List.filter_filter] at this
  have key : ∀ l : List Seen, l.filter (fun a => Seen.fetchOrPut a && Seen.ofLoop a) = l.filter Seen.fetchOrPut := fun l =>
    List.filter_congr fun a _ => by cases a <;> rfl
  rwa [key, key] at this

/-- Between two answers, other goroutines leave the loop where it is. -/
theorem top_other (env : ConsumerEnv) (a : ConsumerAct) (s s' : SC) (hd : s.loop = .top) (ha : a.isOther = true) (h : s.step env a = some s') :
    s'.loop = .top ∧ s'.log.filter Seen.ofLoop = s.log.filter Seen.ofLoop ∧ s'.stop = s.stop := by
  cases a with
  | fetchFailed => cases ha
  | fetched ms => cases ha
  | cancel => cases ha
  | stop => cases ha
  | noticed => simp [SC.step, hd] at h
  | next answer => simp [SC.step, nextMessage, hd] at h
  | advance => simp [SC.step, hd] at h
  | leader found => simp [SC.step, hd] at h
  | receive =>
    simp only [SC.step] at h
    split at h <;> cases h
    exact ⟨hd, by simp [Seen.ofLoop], rfl⟩
  | commit =>
    simp only [SC.step] at h
    split at h <;> cases h
    exact ⟨hd, rfl, rfl⟩
  | commitStep i ok =>
    simp only [SC.step] at h
    split at h
    · cases h
      rename_i c _
      obtain ⟨h1, h2, -⟩ := commitNext_keeps env c ok s
      exact ⟨h1.trans hd, commitNext_seen env c ok s, h2⟩
    · cases h
  | membership m g => cases h; exact ⟨hd, by simp [Seen.ofLoop], rfl⟩

theorem other_stop (env : ConsumerEnv) (a : ConsumerAct) (s s' : SC) (h : s.step env a = some s')
    (hs : s.stop = true) : s'.stop = true := (stop_fetches env a s s' hs h).1

/-- What holds in all states that are reached. -/
structure StartingInv (x : Starting) : Prop where
  flag : x.stopper = .flagged ∨ x.stopper = .returned → x.consumer.stop = true
  past : x.past = true → x.phase = .running ∧ x.consumer.loop = .top
  idle : x.phase ≠ .running → x.consumer.loop = .top
  quiet : x.stopper = .returned → x.past = false ∧ (x.consumer.loop = .top ∨ x.consumer.loop = .done)

theorem startingInv_new (o : Int64) (n : Int32) : StartingInv (Starting.new o n) :=
  ⟨(by rintro (h | h) <;> cases h), fun h => (by cases h), fun _ => rfl, fun h => (by cases h)⟩

theorem arrive_keeps (p : StartAt) (x : Starting) : (x.arrive p).phase = p ∧ (x.arrive p).stopper = x.stopper ∧ (x.arrive p).past = x.past ∧
    (x.arrive p).consumer.loop = x.consumer.loop ∧ (x.arrive p).consumer.stop = x.consumer.stop ∧ (x.arrive p).consumer.log = x.consumer.log ∧
    (x.arrive p).connected = x.connected ∧ (x.arrive p).consumer.offset = x.consumer.offset := by
  unfold Starting.arrive
  dsimp only
  split <;> exact ⟨rfl, rfl, rfl, rfl, rfl, rfl, rfl, rfl⟩

theorem afterLeader_not_running (env : ConsumerEnv) (o : Int64) : afterLeader env o ≠ .running := by
  unfold afterLeader afterCommitted
  split
  · exact nofun
  · split <;> exact nofun

theorem afterCommitted_not_running (o : Int64) : afterCommitted o ≠ .running := by
  unfold afterCommitted
  split <;> exact nofun

/-- What a step does: the invariant stays, the flag stays set, `Stop` stays done, and then no fetch and no message is seen. -/
theorem start_step (env : ConsumerEnv) (a : StartAct) (x y : Starting) (hi : StartingInv x) (h : x.step env a = some y) :
    StartingInv y ∧ (x.stopper = .returned → y.stopper = .returned ∧
      y.consumer.log.filter Seen.fetchOrPut = x.consumer.log.filter Seen.fetchOrPut) := by
  cases a with
  | check =>
    simp only [Starting.step, Starting.check] at h
    split at h
    · rename_i hp
      cases h
      have hl := hi.idle (by rw [hp]; exact nofun)
      refine ⟨⟨hi.flag, fun hpast => ?_, fun _ => hl, hi.quiet⟩, fun hr => ⟨hr, rfl⟩⟩
      have := (hi.past hpast).1
      rw [hp] at this; cases this
    · rename_i hp
      cases h
      have hl := hi.idle (by rw [hp]; exact nofun)
      have hnp : x.past ≠ true := fun hpast => by
        have := (hi.past hpast).1
        rw [hp] at this; cases this
      split
      · exact ⟨⟨hi.flag, fun hpast => absurd hpast hnp, fun _ => hl, hi.quiet⟩, fun hr => ⟨hr, rfl⟩⟩
      · obtain ⟨k1, k2, k3, k4, k5, k6, -⟩ := arrive_keeps (afterLeader env x.consumer.offset) x
        refine ⟨⟨fun hf => ?_, fun hpast => ?_, fun _ => k4.trans hl, fun hr => ?_⟩, fun hr => ⟨k2.trans hr, by rw [k6]⟩⟩
        · rw [k5]; rw [k2] at hf; exact hi.flag hf
        · rw [k3] at hpast; exact absurd hpast hnp
        · rw [k3, k4]; rw [k2] at hr; exact hi.quiet hr
    · rename_i hp
      cases h
      have hl := hi.idle (by rw [hp]; exact nofun)
      refine ⟨⟨hi.flag, fun hpast => ?_, fun _ => hl, hi.quiet⟩, fun hr => ⟨hr, rfl⟩⟩
      have := (hi.past hpast).1
      rw [hp] at this; cases this
    · rename_i hp
      split at h
      · rename_i hc
        split at h
        · rename_i hs
          cases h
          refine ⟨⟨hi.flag, fun hpast => ?_, fun hn => absurd hp hn, fun hr => ⟨(hi.quiet hr).1, .inr rfl⟩⟩, fun hr => ⟨hr, rfl⟩⟩
          have : x.past = true := hpast
          rw [hc.2] at this; cases this
        · rename_i hs
          cases h
          refine ⟨⟨hi.flag, fun _ => ⟨hp, hc.1⟩, fun hn => absurd hp hn, fun hr => ?_⟩, fun hr => ?_⟩
          · exact absurd (hi.flag (.inr hr)) hs
          · exact absurd (hi.flag (.inr hr)) hs
      · cases h
    · cases h
  | leader found =>
    simp only [Starting.step] at h
    split at h
    · rename_i hp
      cases h
      have hl := hi.idle (by rw [hp]; exact nofun)
      have hnp : x.past ≠ true := fun hpast => by
        have := (hi.past hpast).1
        rw [hp] at this; cases this
      split <;> exact ⟨⟨hi.flag, fun hpast => absurd hpast hnp, fun _ => hl, hi.quiet⟩, fun hr => ⟨hr, rfl⟩⟩
    · cases h
  | committed answer =>
    simp only [Starting.step] at h
    split at h
    · rename_i hp
      have hl := hi.idle (by rw [hp]; exact nofun)
      have hnp : x.past ≠ true := fun hpast => by
        have := (hi.past hpast).1
        rw [hp] at this; cases this
      split at h
      · rename_i o
        cases h
        obtain ⟨k1, k2, k3, k4, k5, k6, -⟩ := arrive_keeps (afterCommitted (takeCommitted o x.consumer.offset))
          { x with consumer := { x.consumer with offset := takeCommitted o x.consumer.offset }, asked := x.asked + 1 }
        refine ⟨⟨fun hf => ?_, fun hpast => ?_, fun _ => k4.trans hl, fun hr => ?_⟩, fun hr => ⟨k2.trans hr, by rw [k6]⟩⟩
        · rw [k5]; rw [k2] at hf; exact hi.flag hf
        · rw [k3] at hpast; exact absurd hpast hnp
        · rw [k3, k4]; rw [k2] at hr; exact hi.quiet hr
      · cases h
        exact ⟨⟨hi.flag, fun hpast => absurd hpast hnp, fun _ => hl, hi.quiet⟩, fun hr => ⟨hr, rfl⟩⟩
    · cases h
  | position answer =>
    simp only [Starting.step] at h
    split at h
    · rename_i hp
      cases h
      have hl := hi.idle (by rw [hp]; exact nofun)
      have hnp : x.past ≠ true := fun hpast => by
        have := (hi.past hpast).1
        rw [hp] at this; cases this
      exact ⟨⟨hi.flag, fun hpast => absurd hpast hnp, fun _ => hl, hi.quiet⟩, fun hr => ⟨hr, by simp [Seen.fetchOrPut]⟩⟩
    · cases h
  | launch =>
    simp only [Starting.step] at h
    split at h
    · rename_i hp
      cases h
      have hl := hi.idle (by rw [hp]; exact nofun)
      refine ⟨⟨hi.flag, fun hpast => ?_, fun _ => hl, hi.quiet⟩, fun hr => ⟨hr, rfl⟩⟩
      have := (hi.past hpast).1
      rw [hp] at this; cases this
    · cases h
  | begin =>
    simp only [Starting.step] at h
    split at h
    · rename_i hp
      cases h
      have hl := hi.idle (by rw [hp]; exact nofun)
      exact ⟨⟨hi.flag, fun _ => ⟨rfl, hl⟩, fun _ => hl, hi.quiet⟩, fun hr => ⟨hr, rfl⟩⟩
    · cases h
  | fetch answer =>
    simp only [Starting.step] at h
    split at h
    · rename_i hp
      cases h
      refine ⟨⟨hi.flag, fun hpast => (by cases hpast), fun hn => absurd (hi.past hp).1 hn, fun hr => ?_⟩, fun hr => ?_⟩
      · have := (hi.quiet hr).1; rw [hp] at this; cases this
      · have := (hi.quiet hr).1; rw [hp] at this; cases this
    · cases h
  | other a =>
    obtain ⟨ha, c, hc, rfl⟩ := other_step env a x y h
    refine ⟨⟨fun hf => other_stop env a _ c hc (hi.flag hf), fun hp => ⟨(hi.past hp).1, ?_⟩, fun hn => ?_, fun hr => ?_⟩, fun hr => ⟨hr, ?_⟩⟩
    · exact (top_other env a _ c (hi.past hp).2 ha hc).1
    · exact (top_other env a _ c (hi.idle hn) ha hc).1
    · refine ⟨(hi.quiet hr).1, ?_⟩
      rcases (hi.quiet hr).2 with hl | hl
      · exact .inl (top_other env a _ c hl ha hc).1
      · exact .inr (done_step env a _ c hl hc).1
    · rcases (hi.quiet hr).2 with hl | hl
      · exact fetchOrPut_of_ofLoop (top_other env a _ c hl ha hc).2.1
      · exact fetchOrPut_of_ofLoop (done_step env a _ c hl hc).2.1
  | cancel =>
    simp only [Starting.step] at h
    split at h
    · rename_i hp
      cases h
      exact ⟨⟨(by rintro (h | h) <;> cases h), hi.past, hi.idle, fun h => (by cases h)⟩, fun hr => by rw [hp] at hr; cases hr⟩
    · cases h
  | flag =>
    simp only [Starting.step] at h
    split at h
    · rename_i hp
      cases h
      exact ⟨⟨fun _ => rfl, hi.past, hi.idle, fun h => (by cases h)⟩, fun hr => by rw [hp] at hr; cases hr⟩
    · cases h
  | wait =>
    simp only [Starting.step] at h
    split at h
    · rename_i hp
      cases h
      refine ⟨⟨fun _ => hi.flag (.inl hp.1), hi.past, hi.idle, fun _ => ?_⟩, fun hr => by rw [hp.1] at hr; cases hr⟩
      by_cases hrun : x.phase = .running
      · have hd : x.consumer.loop = .done := Classical.byContradiction fun hn => hp.2 ⟨hrun, hn⟩
        refine ⟨?_, .inr hd⟩
        cases hpast : x.past with
        | false => rfl
        | true => have := (hi.past hpast).2; rw [hd] at this; cases this
      · refine ⟨?_, .inl (hi.idle hrun)⟩
        cases hpast : x.past with
        | false => rfl
        | true => exact absurd (hi.past hpast).1 hrun
    · cases h

theorem start_run (env : ConsumerEnv) (as : List StartAct) (x y : Starting) (hi : StartingInv x) (h : x.run env as = some y) :
    StartingInv y ∧ (x.stopper = .returned → y.consumer.log.filter Seen.fetchOrPut = x.consumer.log.filter Seen.fetchOrPut) := by
  induction as generalizing x with
  | nil => cases h; exact ⟨hi, fun _ => rfl⟩
  | cons a as ih =>
    simp only [Starting.run] at h
    rcases ha : x.step env a with _ | x1
    · rw [ha] at h; cases h
    · rw [ha] at h
      obtain ⟨h1, h2⟩ := start_step env a x x1 hi ha
      obtain ⟨h3, h4⟩ := ih x1 h1 h
      exact ⟨h3, fun hr => by rw [h4 (h2 hr).1, (h2 hr).2]⟩

/-! ## The properties -/

/-- C121, also if `Stop` is called while `Consume` has not returned, or before the loop has begun: when `Stop` has returned, no
fetch is sent and no message is handed over.  (Part of the claim: positions may still be asked for, see
`C121_violated_every_start`.) -/
theorem C121_start_partial (env : ConsumerEnv) (o : Int64) (n : Int32) (as bs : List StartAct) (x y : Starting)
    (hx : (Starting.new o n).run env as = some x) (hr : x.stopper = .returned) (hy : x.run env bs = some y) :
    y.consumer.log.filter Seen.fetchOrPut = x.consumer.log.filter Seen.fetchOrPut :=
  (start_run env bs x y (start_run env as _ x (startingInv_new o n) hx).1 hy).2 hr

theorem fetchCount_fetch (l : List Seen) (o : Int64) (n : Int32) : fetchCount (l ++ [.fetch o n]) = fetchCount l + 1 := by
  unfold fetchCount
  rw [List.filter_append, List.length_append]
  rfl

theorem start_fetches (env : ConsumerEnv) (a : StartAct) (x y : Starting) (hs : x.consumer.stop = true) (h : x.step env a = some y) :
    y.consumer.stop = true ∧ fetchCount y.consumer.log + y.past.toNat ≤ fetchCount x.consumer.log + x.past.toNat := by
  cases a with
  | check =>
    simp only [Starting.step, Starting.check] at h
    split at h
    · cases h; exact ⟨hs, Nat.le_refl _⟩
    · cases h; rw [if_pos hs]; exact ⟨hs, Nat.le_refl _⟩
    · cases h; exact ⟨hs, Nat.le_refl _⟩
    · split at h
      · cases h; exact ⟨hs, Nat.le_refl _⟩
      · cases h
    · cases h
  | leader found =>
    simp only [Starting.step] at h
    split at h
    · cases h; split <;> exact ⟨hs, Nat.le_refl _⟩
    · cases h
  | committed answer =>
    simp only [Starting.step] at h
    split at h
    · split at h
      · rename_i o
        cases h
        obtain ⟨k1, k2, k3, k4, k5, k6, -⟩ := arrive_keeps (afterCommitted (takeCommitted o x.consumer.offset))
          { x with consumer := { x.consumer with offset := takeCommitted o x.consumer.offset }, asked := x.asked + 1 }
        rw [k5, k6, k3]
        exact ⟨hs, Nat.le_refl _⟩
      · cases h; exact ⟨hs, Nat.le_refl _⟩
    · cases h
  | position answer =>
    simp only [Starting.step] at h
    split at h
    · cases h; exact ⟨hs, by simp [fetchCount, Seen.isFetch]⟩
    · cases h
  | launch =>
    simp only [Starting.step] at h
    split at h <;> cases h
    exact ⟨hs, Nat.le_refl _⟩
  | begin =>
    simp only [Starting.step] at h
    split at h <;> cases h
    exact ⟨hs, Nat.le_refl _⟩
  | fetch answer =>
    simp only [Starting.step] at h
    split at h
    · rename_i hp
      cases h
      exact ⟨hs, by rw [fetchCount_fetch, hp]; exact Nat.le_refl _⟩
    · cases h
  | other a =>
    obtain ⟨ha, c, hc, rfl⟩ := other_step env a x y h
    obtain ⟨h1, h2⟩ := stop_fetches env a _ c hs hc
    exact ⟨h1, by simp only [fetchCount, h2]; exact Nat.le_refl _⟩
  | cancel =>
    simp only [Starting.step] at h
    split at h <;> cases h
    exact ⟨hs, Nat.le_refl _⟩
  | flag =>
    simp only [Starting.step] at h
    split at h <;> cases h
    exact ⟨rfl, Nat.le_refl _⟩
  | wait =>
    simp only [Starting.step] at h
    split at h <;> cases h
    exact ⟨hs, Nat.le_refl _⟩

/-- C121: from the moment the flag is set, at most one fetch is sent, and none unless the loop had read the flag before.  (Part
of the claim, which says none: see `C121_violated_every_check`.) -/
theorem C121_one_fetch_partial (env : ConsumerEnv) (as : List StartAct) (x y : Starting) (hs : x.consumer.stop = true)
    (h : x.run env as = some y) : fetchCount y.consumer.log ≤ fetchCount x.consumer.log + x.past.toNat := by
  suffices fetchCount y.consumer.log + y.past.toNat ≤ fetchCount x.consumer.log + x.past.toNat by omega
  induction as generalizing x with
  | nil => cases h; exact Nat.le_refl _
  | cons a as ih =>
    simp only [Starting.run] at h
    rcases ha : x.step env a with _ | x1
    · rw [ha] at h; cases h
    · rw [ha] at h
      obtain ⟨h1, h2⟩ := start_fetches env a x x1 hs ha
      exact Nat.le_trans (ih x1 h1 h) h2

/-- C121 does not hold to the letter: whenever the loop is about to begin a round, `Stop` can set the flag after the loop has
read it, and the fetch is sent then. -/
theorem C121_violated_every_check (env : ConsumerEnv) (x : Starting) (hp : x.phase = .running) (hl : x.consumer.loop = .top)
    (hpast : x.past = false) (hs : x.consumer.stop = false) (hu : x.stopper = .uncalled) (answer : Option (List FullMessage)) :
    ∃ y z, x.run env [.check, .cancel, .flag] = some y ∧ y.consumer.stop = true ∧
      y.run env [.fetch answer] = some z ∧ fetchCount z.consumer.log = fetchCount y.consumer.log + 1 := by
  obtain ⟨c, phase, stopper, past, connected, asked⟩ := x
  simp only at hp hl hpast hs hu
  subst hp hpast hu
  simp [Starting.run, Starting.step, Starting.check, hl, hs, fetchCount_fetch]

/-- C121 does not hold while `Consume` looks for the committed position of a group: for every group and every size, `Stop` can
return before, and as long as the coordinator does not answer the position is asked for, any number of times. -/
theorem C121_violated_every_start (env : ConsumerEnv) (hm : env.mode ≠ .none) (o : Int64) (ho : unknownOffset o = true) (n : Int32)
    (e : Err) :
    ∃ x, (Starting.new o n).run env ([.check, .leader true, .check] ++ wholeStop) = some x ∧ x.stopper = .returned ∧ x.asked = 0 ∧
      ∀ k, ∃ y, x.run env (List.replicate k (.committed (.error e))) = some y ∧ y.asked = k ∧ y.phase = .committed := by
  have ha : afterLeader env o = .committed := by simp [afterLeader, hm, ho]
  have key : ∀ k (x : Starting), x.phase = .committed →
      ∃ y, x.run env (List.replicate k (.committed (.error e))) = some y ∧ y.asked = x.asked + k ∧ y.phase = .committed := by
    intro k
    induction k with
    | zero => intro x hp; exact ⟨x, rfl, rfl, hp⟩
    | succ k ih =>
      intro x hp
      obtain ⟨y, h1, h2, h3⟩ := ih { x with asked := x.asked + 1 } hp
      refine ⟨y, ?_, by rw [h2]; simp only; omega, h3⟩
      rw [List.replicate_succ, Starting.run]
      simp only [Starting.step, hp, if_true, Option.bind_some]
      rw [← h1, hp]
  have hx : ∃ x, (Starting.new o n).run env ([.check, .leader true, .check] ++ wholeStop) = some x ∧ x.stopper = .returned ∧ x.asked = 0 ∧
      x.phase = .committed :=
    ⟨_, by simp [Starting.run, Starting.new, Starting.step, Starting.check, wholeStop, ha, Starting.arrive]; rfl, rfl, rfl, rfl⟩
  obtain ⟨x, h1, h2, h3, h4⟩ := hx
  refine ⟨x, h1, h2, h3, fun k => ?_⟩
  obtain ⟨y, k1, k2, k3⟩ := key k x h4
  exact ⟨y, k1, by rw [k2, h3]; simp, k3⟩

/-- C121 does not hold while `Consume` looks for a position at the leader: for every size and every answer, `Stop` can return
before the question. -/
theorem C121_violated_every_lookup (env : ConsumerEnv) (hm : env.mode = .none) (o : Int64) (ho : unknownOffset o = true) (n : Int32)
    (answer : Except Err Int64) :
    ∃ x y, (Starting.new o n).run env ([.check, .leader true, .check, .check] ++ wholeStop) = some x ∧ x.stopper = .returned ∧
      x.consumer.log = [] ∧ x.run env [.position answer] = some y ∧ y.consumer.log = [.lookup (decide (o = -2)) answer] := by
  have ha : afterLeader env o = .lookup := by simp [afterLeader, hm, afterCommitted, ho]
  have hf : fromBeginningOf o false = decide (o = -2) := by
    unfold fromBeginningOf
    by_cases h1 : o = -1
    · rw [if_pos h1, h1]; rfl
    · rw [if_neg h1]
      by_cases h2 : o = -2 <;> simp [h2]
  refine ⟨_, _, by simp [Starting.run, Starting.new, Starting.step, Starting.check, wholeStop, ha, Starting.arrive]; rfl, rfl, rfl,
    by simp [Starting.run, Starting.step]; rfl, ?_⟩
  simp [hf]

/-- C167 does not hold while `Consume` looks for the leader: `Stop` can return before the connection to the leader is made, for
every position and size, and whatever comes then, the connection stays open (as long as `Stop` is not called again). -/
theorem C167_violated_every_start (env : ConsumerEnv) (o : Int64) (n : Int32) :
    ∃ x, (Starting.new o n).run env ([.check] ++ wholeStop ++ [.leader true, .check]) = some x ∧
      x.stopper = .returned ∧ x.phase = .gaveUp ∧ ∀ as y, x.run env as = some y → y.connected = true := by
  refine ⟨_, by simp [Starting.run, Starting.new, Starting.step, Starting.check, wholeStop]; rfl, rfl, rfl, ?_⟩
  have key : ∀ as (x y : Starting), x.phase = .gaveUp → x.stopper = .returned → x.past = false → x.connected = true → x.run env as = some y → y.connected = true := by
    intro as
    induction as with
    | nil => intro x y _ _ _ h hr; cases hr; exact h
    | cons a as ih =>
      intro x y hp hst hpa hc hr
      simp only [Starting.run] at hr
      rcases ha : x.step env a with _ | x1
      · rw [ha] at hr; cases hr
      · rw [ha] at hr
        cases a with
        | other a =>
          obtain ⟨-, c, -, rfl⟩ := other_step env a x x1 ha
          exact ih { x with consumer := c } y hp hst hpa hc hr
        | _ => simp [Starting.step, Starting.check, hp, hst, hpa] at ha
  exact fun as y => key as _ y rfl rfl rfl rfl

/-- The steps of a `Consume` that nobody stops: the leader is found at once, the coordinator gives `committed`, and the leader
gives `answers` until one is a position. -/
def consumeSteps (env : ConsumerEnv) (offset committed : Int64) (answers : List (Except Err Int64)) : List StartAct :=
  let ask := env.mode ≠ .none ∧ unknownOffset offset = true
  let o := if ask then takeCommitted committed offset else offset
  [.check, .leader true, .check] ++ (if ask then [.committed (.ok committed)] else []) ++
    (if unknownOffset o = true then answers.flatMap fun a => [.check, .position a] else []) ++ [.launch, .begin]

theorem lookups_run (env : ConsumerEnv) (errs : List Err) (o : Int64) (rest : List StartAct) (x : Starting) (hp : x.phase = .lookup)
    (hs : x.consumer.stop = false) :
    ∃ l, x.run env (((errs.map Except.error ++ [Except.ok o]).flatMap fun a => [.check, .position a]) ++ rest) =
      Starting.run env rest { x with phase := .launch, consumer := { x.consumer with offset := o, log := l } } := by
  induction errs generalizing x with
  | nil =>
    obtain ⟨c, phase, stopper, past, connected, asked⟩ := x
    simp only at hp hs
    subst hp
    exact ⟨_, by simp [Starting.run, Starting.step, Starting.check, hs, offsetOrMinusOne]; rfl⟩
  | cons e errs ih =>
    obtain ⟨l, hl⟩ := ih { x with phase := .lookup, consumer := { x.consumer with offset := -1, log := x.consumer.log ++ [.lookup x.consumer.fromBeginning (.error e)] } } rfl hs
    refine ⟨l, ?_⟩
    rw [List.map_cons, List.cons_append, List.flatMap_cons, List.append_assoc, ← hl]
    obtain ⟨c, phase, stopper, past, connected, asked⟩ := x
    simp only at hp hs
    subst hp
    simp [Starting.run, Starting.step, Starting.check, hs, offsetOrMinusOne]

theorem initLookups_errors (errs : List Err) (o o' : Int64) : initLookups (errs.map Except.error ++ [Except.ok o]) o' = (true, o) := by
  induction errs generalizing o' with
  | nil => rfl
  | cons e errs ih => exact ih _

/-- C122: a `Consume` that nobody stops comes, step by step, to the state from which the loop starts there: the position, the side
and the size are those of `consumeStart`, for all positions, committed positions and failing lookups. -/
theorem C122_consume_steps (env : ConsumerEnv) (offset committed : Int64) (errs : List Err) (o : Int64) (n : Int32) :
    ∃ x l, (Starting.new offset n).run env (consumeSteps env offset committed (errs.map Except.error ++ [.ok o])) = some x ∧
      x.phase = .running ∧ x.stopper = .uncalled ∧ x.past = false ∧ x.connected = true ∧
      x.consumer = { consumeStart env.mode offset committed (errs.map Except.error ++ [.ok o]) n with log := l } := by
  have hnew : ∀ rest, (Starting.new offset n).run env ([.check, .leader true, .check] ++ rest) =
      Starting.run env rest (Starting.arrive (afterLeader env offset) { Starting.new offset n with phase := .gate, connected := true }) := by
    intro rest
    simp [Starting.run, Starting.new, Starting.step, Starting.check]
  unfold consumeSteps
  simp only [List.append_assoc]
  rw [hnew]
  unfold consumeStart
  by_cases h12 : offset = -1 ∨ offset = -2
  · have hu : unknownOffset offset = true := by simp [unknownOffset, h12]
    have hfb : fromBeginningOf offset false = decide (offset = -2) := by
      rcases h12 with rfl | rfl <;> rfl
    have hlook : ∀ x : Starting, x.phase = .lookup → x.consumer.stop = false → x.stopper = .uncalled → x.past = false → x.connected = true →
        ∃ y l, x.run env (((errs.map Except.error ++ [Except.ok o]).flatMap fun a => [.check, .position a]) ++ [.launch, .begin]) = some y ∧
          y.phase = .running ∧ y.stopper = .uncalled ∧ y.past = false ∧ y.connected = true ∧
          y.consumer = { x.consumer with offset := o, log := l } := by
      intro x hp hs h1 h2 h3
      obtain ⟨l, hl⟩ := lookups_run env errs o [.launch, .begin] x hp hs
      rw [hl]
      exact ⟨_, l, rfl, rfl, h1, h2, h3, rfl⟩
    by_cases hm : env.mode = .none
    · have ha : afterLeader env offset = .lookup := by simp [afterLeader, hm, afterCommitted, hu]
      simp only [hm, ne_eq, not_true_eq_false, false_and, if_false, List.nil_append, hu, if_true, ha, h12, initLookups_errors]
      obtain ⟨y, l, k1, k2, k3, k4, k5, k6⟩ := hlook
        (Starting.arrive .lookup { Starting.new offset n with phase := .gate, connected := true }) rfl rfl rfl rfl rfl
      refine ⟨y, l, k1, k2, k3, k4, k5, ?_⟩
      rw [k6]
      simp [Starting.arrive, Starting.new, hfb]
    · have ha : afterLeader env offset = .committed := by simp [afterLeader, hm, hu]
      simp only [ne_eq, hm, not_false_eq_true, hu, and_self, if_true, true_and, h12, ha]
      by_cases hc : committed ≥ 0
      · have hun : ¬ (committed = -1 ∨ committed = -2) := by
          rintro (rfl | rfl) <;> exact absurd hc (by decide)
        have hcu : unknownOffset committed = false := by simpa [unknownOffset] using hun
        have ht : takeCommitted committed offset = committed := by simp [takeCommitted, hc]
        simp only [ht, hcu, Bool.false_eq_true, if_false, List.nil_append, hc, if_true, hun]
        exact ⟨_, [], by simp [Starting.run, Starting.step, Starting.arrive, Starting.new, ht, afterCommitted, hcu]; rfl, rfl, rfl, rfl, rfl, rfl⟩
      · have ht : takeCommitted committed offset = offset := by simp [takeCommitted, hc]
        simp only [ht, hu, if_true, hc, if_false, h12, initLookups_errors]
        obtain ⟨y, l, k1, k2, k3, k4, k5, k6⟩ := hlook
          (Starting.arrive .lookup { Starting.new offset n with phase := .committed, connected := true, asked := 1 }) rfl rfl rfl rfl rfl
        refine ⟨y, l, ?_, k2, k3, k4, k5, ?_⟩
        · rw [← k1]
          simp [Starting.run, Starting.step, Starting.arrive, Starting.new, ht, afterCommitted, hu]
        · rw [k6]
          simp [Starting.arrive, Starting.new, hfb]
  · have hu : unknownOffset offset = false := by simpa [unknownOffset] using h12
    have ha : afterLeader env offset = .launch := by simp [afterLeader, afterCommitted, hu]
    simp only [hu, Bool.false_eq_true, and_false, if_false, List.nil_append, h12, false_and, ha]
    exact ⟨_, [], rfl, rfl, rfl, rfl, rfl, rfl⟩

/-! ## Cases -/

/-- `Stop` returns before the loop begins; the loop then ends at once -/
example : ((Starting.new 5 100).run { mode := .none } ([.check, .leader true, .check, .launch] ++ wholeStop ++ [.begin, .check])).map
    (fun x => (x.phase, x.stopper, x.consumer.loop, x.consumer.log.length)) = some (.running, .returned, .done, 0) := by decide

/-- `Stop` waits for a loop that has begun; a fetch is sent after the flag was set, and its message may still be handed over -/
example : ((Starting.new 5 100).run { mode := .none } [.check, .leader true, .check, .launch, .begin, .check, .cancel, .flag,
    .fetch (some [⟨[], 0, none, some { offset := 5 }⟩]), .other (.next (.error .eof)), .other .advance, .other .noticed, .check, .wait]).map
    (fun x => (x.stopper, x.consumer.loop, fetchCount x.consumer.log, x.consumer.log.length, x.consumer.offset)) =
    some (.returned, .done, 1, 2, 6) := by decide
example : ((Starting.new 5 100).run { mode := .none } ([.check, .leader true, .check, .launch, .begin] ++ wholeStop)).isNone = true := by decide

/-- two failing lookups -/
example : ((Starting.new (-2) 100).run { mode := .own } (consumeSteps { mode := .own } (-2) (-1) [.error .eof, .error .timeout, .ok 3])).map
    (fun x => (x.phase, x.consumer.offset, x.consumer.fromBeginning, x.asked)) = some (.running, 3, true, 1) := by decide

end Healer
