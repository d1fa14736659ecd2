import Verif.Props.Starting

/-!
# C120, C176: what `Stop` ends
-/

namespace Healer

/-! ## Specification -/

/-- A step of the loop's goroutine, given where `Consume` and the loop are. -/
def StartAct.ofLoop (phase : StartAt) : StartAct → Bool
  | .check => decide (phase = .running)
  | .fetch _ => true
  | .other a => a.ofLoop
  | _ => false

/-- A step of `Consume`. -/
def StartAct.ofConsume (phase : StartAt) : StartAct → Bool
  | .check => decide (phase ≠ .running)
  | .leader _ | .committed _ | .position _ | .launch => true
  | _ => false

/-- How many steps of a kind are made. -/
def stepsOf (env : ConsumerEnv) (kind : StartAt → StartAct → Bool) : List StartAct → Starting → Nat
  | [], _ => 0
  | a :: as, x => ((x.step env a).map fun y => (kind x.phase a).toNat + stepsOf env kind as y).getD 0

/-- What the answer to a fetch gives the loop to do. -/
def StartAct.work : StartAct → Nat
  | .fetch (some ms) => 3 + 2 * ms.length
  | .fetch none => 2
  | _ => 0

/-- The coordinator failed to tell the committed position. -/
def StartAct.unanswered : StartAct → Bool
  | .committed (.error _) => true
  | _ => false

/-- `Consume` has not returned. -/
def StartAt.atWork (p : StartAt) : Bool := decide (p ≠ .gaveUp ∧ p ≠ .launched ∧ p ≠ .running)

/-! ## Lemmas -/

/-- How many steps `Consume` makes at most, if the coordinator answers. -/
def StartAt.left : StartAt → Nat
  | .asking | .looking => 3
  | .leader | .lookup => 2
  | .gate | .launch => 1
  | .committed => 4
  | .gaveUp | .launched | .running => 0

theorem afterCommitted_left (o : Int64) : (afterCommitted o).left ≤ 2 := by
  unfold afterCommitted
  split <;> decide

theorem consume_step (env : ConsumerEnv) (a : StartAct) (x y : Starting) (hs : x.consumer.stop = true) (h : x.step env a = some y) :
    y.phase.left + (a.ofConsume x.phase).toNat ≤ x.phase.left + a.unanswered.toNat := by
  cases a with
  | check =>
    simp only [Starting.step, Starting.check] at h
    split at h <;> rename_i hp
    · cases h; simp [hp, hs, StartAt.left, StartAct.ofConsume, StartAct.unanswered]
    · cases h; simp [hp, hs, StartAt.left, StartAct.ofConsume, StartAct.unanswered]
    · cases h; simp [hp, hs, StartAt.left, StartAct.ofConsume, StartAct.unanswered]
    · split at h
      · cases h; simp [hp, StartAt.left, StartAct.ofConsume, StartAct.unanswered]
      · cases h
    · cases h
  | leader found =>
    simp only [Starting.step] at h
    split at h
    · rename_i hp
      cases h
      rw [hp]
      split <;> simp [StartAt.left, StartAct.ofConsume, StartAct.unanswered]
    · cases h
  | committed answer =>
    simp only [Starting.step] at h
    split at h
    · rename_i hp
      split at h
      · rename_i o
        cases h
        rw [(arrive_keeps _ _).1, hp]
        have := afterCommitted_left (takeCommitted o x.consumer.offset)
        show (afterCommitted (takeCommitted o x.consumer.offset)).left + 1 ≤ 4 + 0
        omega
      · cases h
        simp [hp, StartAt.left, StartAct.ofConsume, StartAct.unanswered]
    · cases h
  | position answer =>
    simp only [Starting.step] at h
    split at h
    · rename_i hp
      cases h
      rw [hp]
      cases answer <;> simp [StartAt.left, StartAct.ofConsume, StartAct.unanswered]
    · cases h
  | launch =>
    simp only [Starting.step] at h
    split at h <;> cases h
    rename_i hp
    simp [hp, StartAt.left, StartAct.ofConsume, StartAct.unanswered]
  | begin =>
    simp only [Starting.step] at h
    split at h <;> cases h
    rename_i hp
    simp [hp, StartAt.left, StartAct.ofConsume, StartAct.unanswered]
  | fetch answer =>
    simp only [Starting.step] at h
    split at h <;> cases h
    exact Nat.le_refl _
  | other a =>
    obtain ⟨-, c, -, rfl⟩ := other_step env a x y h
    exact Nat.le_refl _
  | cancel =>
    simp only [Starting.step] at h
    split at h <;> cases h
    exact Nat.le_refl _
  | flag =>
    simp only [Starting.step] at h
    split at h <;> cases h
    exact Nat.le_refl _
  | wait =>
    simp only [Starting.step] at h
    split at h <;> cases h
    exact Nat.le_refl _

theorem loop_step (env : ConsumerEnv) (a : StartAct) (x y : Starting) (hs : x.consumer.stop = true) (hc : x.consumer.cancelled = true)
    (h : x.step env a = some y) :
    y.consumer.cancelled = true ∧ y.consumer.loop.left + (a.ofLoop x.phase).toNat ≤ x.consumer.loop.left + a.work := by
  cases a with
  | check =>
    simp only [Starting.step, Starting.check] at h
    split at h <;> rename_i hp
    · cases h; rw [hp]; exact ⟨hc, Nat.le_refl _⟩
    · cases h; rw [hp, if_pos hs]; exact ⟨hc, Nat.le_refl _⟩
    · cases h; rw [hp]; exact ⟨hc, Nat.le_refl _⟩
    · split at h
      · rename_i hl
        cases h; simp [hp, hl.1, hc, LoopAt.left, StartAct.ofLoop, StartAct.work]
      · cases h
    · cases h
  | leader found =>
    simp only [Starting.step] at h
    split at h <;> cases h
    split <;> exact ⟨hc, Nat.le_refl _⟩
  | committed answer =>
    simp only [Starting.step] at h
    split at h
    · split at h
      · cases h
        unfold Starting.arrive
        dsimp only
        split <;> exact ⟨hc, Nat.le_refl _⟩
      · cases h; exact ⟨hc, Nat.le_refl _⟩
    · cases h
  | position answer =>
    simp only [Starting.step] at h
    split at h <;> cases h
    exact ⟨hc, Nat.le_refl _⟩
  | launch =>
    simp only [Starting.step] at h
    split at h <;> cases h
    exact ⟨hc, Nat.le_refl _⟩
  | begin =>
    simp only [Starting.step] at h
    split at h <;> cases h
    exact ⟨hc, Nat.le_refl _⟩
  | fetch answer =>
    simp only [Starting.step] at h
    split at h <;> cases h
    refine ⟨hc, ?_⟩
    cases answer <;> simp only [LoopAt.left, StartAct.ofLoop, StartAct.work, Bool.toNat_true] <;> omega
  | other a =>
    obtain ⟨-, c, h1, rfl⟩ := other_step env a x y h
    obtain ⟨-, k2, k3⟩ := stopped_step env a _ c hs hc h1
    refine ⟨k2, ?_⟩
    simp only [StartAct.ofLoop, StartAct.work]
    cases ha : a.ofLoop <;> simp only [ha, if_true, Bool.false_eq_true, if_false, Bool.toNat_true, Bool.toNat_false] at k3 ⊢ <;> omega
  | cancel =>
    simp only [Starting.step] at h
    split at h <;> cases h
    exact ⟨rfl, Nat.le_refl _⟩
  | flag =>
    simp only [Starting.step] at h
    split at h <;> cases h
    exact ⟨hc, Nat.le_refl _⟩
  | wait =>
    simp only [Starting.step] at h
    split at h <;> cases h
    exact ⟨hc, Nat.le_refl _⟩

theorem start_stopped (env : ConsumerEnv) (as : List StartAct) (x y : Starting) (hs : x.consumer.stop = true) (hc : x.consumer.cancelled = true)
    (h : x.run env as = some y) : y.consumer.stop = true ∧ y.consumer.cancelled = true := by
  induction as generalizing x with
  | nil => cases h; exact ⟨hs, hc⟩
  | cons a as ih =>
    simp only [Starting.run] at h
    rcases ha : x.step env a with _ | x1
    · rw [ha] at h; cases h
    · rw [ha] at h
      exact ih x1 (start_fetches env a x x1 hs ha).1 (loop_step env a x x1 hs hc ha).1 h

theorem step_cancelled (env : ConsumerEnv) (a : ConsumerAct) (s s' : SC) (hc : s.cancelled = true) (h : s.step env a = some s') :
    s'.cancelled = true := by
  cases a with
  | fetchFailed =>
    simp only [SC.step] at h
    split at h
    · split at h <;> cases h <;> exact hc
    · cases h
  | fetched ms =>
    simp only [SC.step] at h
    split at h
    · split at h <;> cases h <;> exact hc
    · cases h
  | noticed =>
    simp only [SC.step] at h
    split at h
    · split at h <;> cases h <;> exact hc
    · cases h
  | next answer =>
    simp only [SC.step, nextMessage] at h
    rcases hl : s.loop with _ | (_ | ⟨x, ms⟩) | ⟨m, ms⟩ | _ | _ <;> simp only [hl] at h <;> try (cases h; done)
    · cases h; exact hc
    · rcases he : x.error with _ | e
      · rcases hm : x.message with _ | m
        · simp only [he, hm] at h; cases h
        · simp only [he, hm] at h
          split at h
          · cases h; exact hc
          · split at h <;> cases h
            exact hc
      · simp only [he] at h
        cases h
        exact (onError_left e answer s).2.2.trans hc
  | advance =>
    simp only [SC.step] at h
    split at h <;> cases h
    exact hc
  | leader found =>
    simp only [SC.step] at h
    split at h
    · split at h <;> cases h <;> exact hc
    · cases h
  | receive =>
    simp only [SC.step] at h
    split at h <;> cases h
    exact hc
  | commit =>
    simp only [SC.step] at h
    split at h <;> cases h
    exact hc
  | commitStep i ok =>
    simp only [SC.step] at h
    split at h
    · cases h
      rename_i c _
      exact (commitNext_keeps env c ok s).2.2.trans hc
    · cases h
  | membership m g => cases h; exact hc
  | cancel => cases h; rfl
  | stop => cases h; exact hc

theorem start_cancelled (env : ConsumerEnv) (a : StartAct) (x y : Starting) (hi : x.stopper ≠ .uncalled → x.consumer.cancelled = true)
    (h : x.step env a = some y) : y.stopper ≠ .uncalled → y.consumer.cancelled = true := by
  cases a with
  | check =>
    simp only [Starting.step, Starting.check] at h
    split at h
    · cases h; exact hi
    · cases h
      split
      · exact hi
      · unfold Starting.arrive; dsimp only; split <;> exact hi
    · cases h; exact hi
    · split at h
      · split at h <;> cases h <;> exact hi
      · cases h
    · cases h
  | leader found =>
    simp only [Starting.step] at h
    split at h <;> cases h
    split <;> exact hi
  | committed answer =>
    simp only [Starting.step] at h
    split at h
    · split at h
      · cases h
        unfold Starting.arrive
        dsimp only
        split <;> exact hi
      · cases h; exact hi
    · cases h
  | other a =>
    obtain ⟨-, c, h1, rfl⟩ := other_step env a x y h
    exact fun hn => step_cancelled env a _ c (hi hn) h1
  | cancel =>
    simp only [Starting.step] at h
    split at h <;> cases h
    exact fun _ => rfl
  | flag =>
    simp only [Starting.step] at h
    split at h <;> cases h
    rename_i hp
    exact fun _ => hi (by rw [hp]; exact nofun)
  | wait =>
    simp only [Starting.step] at h
    split at h <;> cases h
    rename_i hp
    exact fun _ => hi (by rw [hp.1]; exact nofun)
  | _ =>
    simp only [Starting.step] at h
    split at h <;> cases h
    exact hi

theorem start_cancelled_run (env : ConsumerEnv) (as : List StartAct) (x y : Starting) (hi : x.stopper ≠ .uncalled → x.consumer.cancelled = true)
    (h : x.run env as = some y) : y.stopper ≠ .uncalled → y.consumer.cancelled = true := by
  induction as generalizing x with
  | nil => cases h; exact hi
  | cons a as ih =>
    simp only [Starting.run] at h
    rcases ha : x.step env a with _ | x1
    · rw [ha] at h; cases h
    · rw [ha] at h
      exact ih x1 (start_cancelled env a x x1 hi ha) h

/-! ## The properties -/

/-- C120, with `Consume`, the loop and `Stop` as goroutines of their own: once the context is cancelled and the flag set, the loop
(if it has begun) can make a step until it ends, whatever the others do or leave undone, and makes a bounded number of them; an
answer to a fetch for which it had read the flag before (one at most, `C121_one_fetch_partial`) adds to it by its length. -/
theorem C120_steps (env : ConsumerEnv) (x : Starting) (hs : x.consumer.stop = true) (hc : x.consumer.cancelled = true) :
    (∀ as y, x.run env as = some y → y.phase = .running → y.consumer.loop ≠ .done →
      ∃ a, a.ofLoop .running = true ∧ (y.step env a).isSome = true) ∧
    ∃ n, ∀ as, stepsOf env StartAct.ofLoop as x ≤ n + (as.map StartAct.work).sum := by
  refine ⟨fun as y h hp hd => ?_, x.consumer.loop.left, fun as => ?_⟩
  · obtain ⟨h1, h2⟩ := start_stopped env as x y hs hc h
    cases hpast : y.past with
    | true => exact ⟨.fetch none, rfl, by simp [Starting.step, hpast]⟩
    | false =>
      rcases hl : y.consumer.loop with _ | ms | ⟨m, ms⟩ | _ | _
      · exact ⟨.check, rfl, by simp [Starting.step, Starting.check, hp, hl, hpast, h1]⟩
      · exact ⟨.other .noticed, rfl, by simp [Starting.step, SC.step, hl, h2]⟩
      · exact ⟨.other .advance, rfl, by simp [Starting.step, SC.step, hl]⟩
      · exact ⟨.other (.leader false), rfl, by simp [Starting.step, SC.step, hl]⟩
      · exact absurd hl hd
  · induction as generalizing x with
    | nil => exact Nat.zero_le _
    | cons a as ih =>
      simp only [stepsOf, List.map_cons, List.sum_cons]
      rcases ha : x.step env a with _ | x1
      · exact Nat.zero_le _
      · obtain ⟨k1, k2⟩ := loop_step env a x x1 hs hc ha
        have := ih x1 (start_fetches env a x x1 hs ha).1 k1
        simp only [Option.map_some, Option.getD_some]
        omega

/-- C120, for a `Stop` called at any time after `Consume` began: once it has set the flag, it can return or the loop can make a step, until it
has returned, whatever the others do or leave undone, and the loop makes a bounded number of steps, as in `C120_steps`. -/
theorem C120_stop_ends (env : ConsumerEnv) (o : Int64) (n : Int32) (as : List StartAct) (x : Starting)
    (hx : (Starting.new o n).run env as = some x) (hf : x.stopper = .flagged) :
    (∀ bs y, x.run env bs = some y → y.stopper = .flagged → (y.step env .wait).isSome = true ∨
      ∃ a, a.ofLoop .running = true ∧ (y.step env a).isSome = true) ∧
    ∃ n, ∀ bs, stepsOf env StartAct.ofLoop bs x ≤ n + (bs.map StartAct.work).sum := by
  have hs := (start_run env as _ x (startingInv_new o n) hx).1.flag (.inl hf)
  have hc := start_cancelled_run env as _ x (fun h => absurd rfl h) hx (by rw [hf]; exact nofun)
  obtain ⟨h1, h2⟩ := C120_steps env x hs hc
  refine ⟨fun bs y hy hyf => ?_, h2⟩
  by_cases hr : y.phase = .running ∧ y.consumer.loop ≠ .done
  · exact .inr (h1 bs y hy hr.1 hr.2)
  · exact .inl (by simp only [Starting.step]; rw [if_pos ⟨hyf, hr⟩]; rfl)

/-- C176: when the flag is set, `Consume` can make a step until it has returned, and makes at most four, and one for every failure
of the coordinator to tell the committed position.  What is missing: these failures are not bounded
(`C176_violated_every_failure`). -/
theorem C176_returns_partial (env : ConsumerEnv) (x : Starting) (hs : x.consumer.stop = true) (as : List StartAct) :
    (x.phase.atWork = true → ∃ a, a.ofConsume x.phase = true ∧ a.unanswered = false ∧ (x.step env a).isSome = true) ∧
    stepsOf env StartAct.ofConsume as x ≤ 4 + as.countP StartAct.unanswered := by
  refine ⟨fun hw => ?_, Nat.le_trans (m := x.phase.left + as.countP StartAct.unanswered) ?_ ?_⟩
  · rcases hp : x.phase with _ | _ | _ | _ | _ | _ | _ | _ | _ | _
    · exact ⟨.check, rfl, rfl, by simp [Starting.step, Starting.check, hp]⟩
    · exact ⟨.leader false, rfl, rfl, by simp [Starting.step, hp]⟩
    · exact ⟨.check, rfl, rfl, by simp [Starting.step, Starting.check, hp]⟩
    · exact ⟨.committed (.ok 0), rfl, rfl, by simp [Starting.step, hp]⟩
    · exact ⟨.check, rfl, rfl, by simp [Starting.step, Starting.check, hp]⟩
    · exact ⟨.position (.ok 0), rfl, rfl, by simp [Starting.step, hp]⟩
    · exact ⟨.launch, rfl, rfl, by simp [Starting.step, hp]⟩
    all_goals rw [hp] at hw; cases hw
  · induction as generalizing x with
    | nil => exact Nat.zero_le _
    | cons a as ih =>
      simp only [stepsOf]
      rcases ha : x.step env a with _ | x1
      · exact Nat.zero_le _
      · have k := consume_step env a x x1 hs ha
        have := ih x1 (start_fetches env a x x1 hs ha).1
        simp only [Option.map_some, Option.getD_some, List.countP_cons]
        cases hu : a.unanswered <;> simp only [hu, Bool.toNat_true, Bool.toNat_false, if_true, Bool.false_eq_true, if_false] at k ⊢ <;> omega
  · have : x.phase.left ≤ 4 := by cases x.phase <;> decide
    omega

/-- C176 does not hold while `Consume` asks for the committed position: whatever happens, `Stop` included, it does not return
before the coordinator answers. -/
theorem C176_violated_every_failure (env : ConsumerEnv) (x y : Starting) (hp : x.phase = .committed) (hpast : x.past = false)
    (as : List StartAct) (h : x.run env as = some y) (hn : ∀ o, StartAct.committed (.ok o) ∉ as) : y.phase = .committed := by
  induction as generalizing x with
  | nil => cases h; exact hp
  | cons a as ih =>
    simp only [Starting.run] at h
    rcases ha : x.step env a with _ | x1
    · rw [ha] at h; cases h
    · rw [ha] at h
      have hn' : ∀ o, StartAct.committed (.ok o) ∉ as := fun o ho => hn o (List.mem_cons_of_mem _ ho)
      cases a with
      | other a => obtain ⟨-, c, -, rfl⟩ := other_step env a x x1 ha; exact ih { x with consumer := c } hp hpast h hn'
      | committed answer =>
        cases answer with
        | ok o => exact absurd List.mem_cons_self (hn o)
        | error e =>
          simp only [Starting.step, hp, if_true] at ha
          cases ha
          exact ih { x with phase := .committed, asked := x.asked + 1 } rfl hpast h hn'
      | cancel =>
        simp only [Starting.step] at ha
        split at ha <;> cases ha
        exact ih { x with stopper := .cancelled, consumer := { x.consumer with cancelled := true } } hp hpast h hn'
      | flag =>
        simp only [Starting.step] at ha
        split at ha <;> cases ha
        exact ih { x with stopper := .flagged, consumer := { x.consumer with stop := true } } hp hpast h hn'
      | wait =>
        simp only [Starting.step] at ha
        split at ha <;> cases ha
        exact ih { x with stopper := .returned, connected := false } hp hpast h hn'
      | _ => simp [Starting.step, Starting.check, hp, hpast] at ha

/-- Such a state is reached in every group for every unknown position, and from it any number of failures is possible, before and
after `Stop` has returned. -/
theorem C176_violated_every_group (env : ConsumerEnv) (hm : env.mode ≠ .none) (o : Int64) (ho : unknownOffset o = true) (n : Int32)
    (e : Err) (k : Nat) :
    ∃ x y, (Starting.new o n).run env ([.check, .leader true, .check] ++ wholeStop) = some x ∧ x.stopper = .returned ∧
      x.consumer.stop = true ∧ x.run env (List.replicate k (.committed (.error e))) = some y ∧ y.phase.atWork = true ∧
      stepsOf env StartAct.ofConsume (List.replicate k (.committed (.error e))) x = k := by
  obtain ⟨x, h1, h2, h3, h4⟩ := C121_violated_every_start env hm o ho n e
  obtain ⟨y, h5, h6, h7⟩ := h4 k
  have hx := (start_run env _ _ x (startingInv_new o n) h1).1
  have hp : x.phase = .committed := by
    obtain ⟨z, k1, -, k3⟩ := h4 0
    cases k1
    exact k3
  refine ⟨x, y, h1, h2, hx.flag (.inr h2), h5, by rw [h7]; rfl, ?_⟩
  clear h1 h2 h3 h4 h5 h6 h7 hx
  induction k generalizing x with
  | zero => rfl
  | succ k ih =>
    simp only [List.replicate_succ, stepsOf, Starting.step, hp, if_true, Option.map_some, Option.getD_some, StartAct.ofConsume, Bool.toNat_true]
    rw [ih { x with phase := .committed, asked := x.asked + 1 } rfl]
    omega

/-- the loop reads the flag, `Stop` begins, and the answer to the fetch is the last -/
example : ∃ y, (Starting.new 5 100).run { mode := .none, capacity := 1 }
    [.check, .leader true, .check, .launch, .begin, .check, .cancel, .flag, .fetch (some []), .other .noticed, .check, .wait] = some y ∧
      y.stopper = .returned ∧ y.consumer.loop = .done := ⟨_, rfl, rfl, rfl⟩

/-- `Consume` is stopped while it looks for the leader -/
example : ∃ y, (Starting.new 5 100).run { mode := .none, capacity := 1 }
    ([.check] ++ wholeStop ++ [.leader false, .check, .check]) = some y ∧ y.phase = .gaveUp := ⟨_, rfl, rfl⟩

end Healer
