import Verif.Props.Always10
import Verif.Props.MultiConsumer

/-!
# C171: calling `Consume` after `Close`
-/

namespace Healer

/-! ## Consumers with a group -/

/-- After a `Close` that found nothing being started, the value it put into `closeChan` is still there: nobody takes it out. -/
theorem token_left {as : List GroupAct} {s : GC} (h : GC.run true as {} = some s) : s.close ≠ .none → s.close ≠ .sending → s.token = true := by
  refine (GC.run_induction (P := fun s => GroupInv s ∧ (s.close ≠ .none → s.close ≠ .sending → s.token = true)) ?_ as {} s h ⟨.init, by simp⟩).2
  rintro a s s' hs ⟨hi, hp⟩
  refine ⟨hi.step hs, ?_⟩
  have h1 := hi.sane
  have h2 := hi.idle
  unfold GC.step at hs
  rw [h1] at hs
  simp only [Bool.false_eq_true, if_false] at hs
  cases a with
  | consume => simp only at hs; split at hs <;> cases hs; simpa using hp
  | restart => simp only at hs; split at hs <;> cases hs; simpa using hp
  | work token =>
    intro hc
    have hw : s.work ≠ .idle := by intro hw; simp [GC.workStep, hw] at hs
    have : s.close = .none := by
      cases hx : s.close <;> first | rfl | exact absurd (h2 (by simp [hx])).1 hw
    exfalso
    apply hc
    simp only [GC.workStep, GC.stopOne] at hs
    repeat' split at hs
    all_goals first | (cases hs; done) | (cases hs; exact this)
  | join ok n =>
    simp only [GC.joinStep] at hs
    repeat' split at hs
    all_goals first | (cases hs; done) | (cases hs; exact hp)
  | close => simp only at hs; split at hs <;> cases hs; simp
  | closeStep ok =>
    simp only [GC.closeNext, GC.stopOne] at hs
    repeat' split at hs
    all_goals first | (cases hs; done) | (cases hs; simp_all)

/-- **C171 is violated for every group consumer that was closed in good order.** Whatever it has done before, `Consume` called after `Close` finds the value which `Close` left in `closeChan`
and can return at once, without an error and without having started anything.  The joining goroutine goes on: it becomes a member, and makes a consumer for each of the `n` partitions it is
assigned, none of which is started; the `joined` flag, without which no heartbeats are sent, is as it was.  If `Close` is called then, and there are any, the program crashes. -/
theorem C171_violated_every_group (as : List GroupAct) (s : GC) (h : GC.run true as {} = some s) (hd : s.close = .done) (n : Nat) :
    (∃ t, GC.run false [.consume, .work false, .work true] s = some t ∧ t.work = .idle ∧ t.closed = false ∧ t.started = s.started) ∧
    (∃ t, GC.run false [.consume, .work false, .work true, .join true 0, .join true 0, .join true n] s = some t ∧ t.work = .idle ∧ t.closed = false ∧ t.member = true ∧
      t.joined = s.joined ∧ t.consumers = List.range' s.made n ∧ t.started = s.started ∧ (∀ ok tk k, t.workStep tk = none ∧ t.joinStep ok k = none)) ∧
    (0 < n → ∃ t, GC.run false ([.consume, .work false, .work true, .join true 0, .join true 0, .join true n] ++ [.close, .closeStep true, .closeStep true, .closeStep true]) s = some t ∧
      t.crashed = true) := by
  have hi := GroupInv.run h
  have ht := token_left h (by simp [hd]) (by simp [hd])
  have h1 := hi.sane
  obtain ⟨hw, hj⟩ := hi.idle (by simp [hd])
  obtain ⟨hc, -⟩ := hi.closed (.inr (.inr hd))
  have hr : (List.range n).map (s.made + ·) = List.range' s.made n := by
    rw [List.range'_eq_map_range]
  have r1 : GC.run false [.consume, .work false, .work true] s = some { s with closed := false, token := false, work := .idle, join := .top } := by
    simp [GC.run, GC.step, GC.workStep, h1, hw, hj, hc, ht]
  have r2 : GC.run false [.join true 0, .join true 0, .join true n] { s with closed := false, token := false, work := .idle, join := .top } =
      some { s with closed := false, token := false, work := .idle, join := .ready, member := true, consumers := List.range' s.made n, made := s.made + n } := by
    simp [GC.run, GC.step, GC.joinStep, h1, hr]
  have r12 : GC.run false [.consume, .work false, .work true, .join true 0, .join true 0, .join true n] s =
      some { s with closed := false, token := false, work := .idle, join := .ready, member := true, consumers := List.range' s.made n, made := s.made + n } := by
    rw [show [GroupAct.consume, .work false, .work true, .join true 0, .join true 0, .join true n] = [.consume, .work false, .work true] ++ [.join true 0, .join true 0, .join true n] from rfl,
      run_append, r1, Option.bind_some, r2]
  refine ⟨⟨_, r1, rfl, rfl, rfl⟩, ⟨_, r12, rfl, rfl, rfl, rfl, rfl, rfl, fun _ _ _ => ⟨rfl, rfl⟩⟩, fun hn => ?_⟩
  obtain ⟨k, rfl⟩ : ∃ k, n = k + 1 := ⟨n - 1, by omega⟩
  rw [run_append, r12, Option.bind_some]
  refine ⟨{ s with closed := true, token := true, work := .idle, join := .ready, member := true, consumers := List.range' s.made (k + 1), made := s.made + (k + 1), stopped := s.stopped ++ [s.made], counter := s.counter - 1, crashed := true, close := .stopping (List.range' (s.made + 1) k) }, ?_, rfl⟩
  simp [GC.run, GC.step, GC.closeNext, GC.stopOne, WorkAt.holds, h1, hd, hc, List.range'_succ]

/-- Nothing is left in `closeChan`, and nothing is closing; what was made has been started when the work is done. -/
structure ReuseInv (s : GC) : Prop where
  token : s.token = false
  close : s.close = .none ∨ s.close = .done
  join : s.work ≠ .selecting → s.join = .none ∨ s.join = .ready
  idle : s.work = .idle → ∀ i ∈ s.consumers, i ∈ s.started
  starting : ∀ rest, s.work = .starting rest → ∀ i ∈ s.consumers, i ∈ s.started ∨ i ∈ rest

theorem ReuseInv.step {a : GroupAct} {s s' : GC} (hi : ReuseInv s) (ha : a ≠ .close) (hs : s.step false a = some s') : ReuseInv s' := by
  obtain ⟨p1, p2, p3, p4, p5⟩ := hi
  unfold GC.step at hs
  split at hs
  · cases hs
  cases a with
  | close => exact absurd rfl ha
  | consume => simp only at hs; split at hs <;> cases hs; rename_i hx; constructor <;> simp_all
  | restart => simp only at hs; split at hs <;> cases hs; rename_i hx; constructor <;> simp_all
  | work token =>
    simp only [GC.workStep, GC.stopOne] at hs
    repeat' split at hs
    all_goals first | (cases hs; done) | (cases hs; constructor <;> simp_all; done) | skip
    all_goals
      cases hs
      rename_i i rest hw
      refine ⟨p1, p2, by simpa [hw] using p3, by simp, ?_⟩
      intro r hr j hj
      cases hr
      rcases p5 _ hw j hj with h | h
      · exact .inl (by simp [h])
      · rcases List.mem_cons.1 h with h | h
        · exact .inl (by simp [h])
        · exact .inr h
  | join ok n =>
    simp only [GC.joinStep] at hs
    repeat' split at hs
    all_goals first | (cases hs; done) | (cases hs; constructor <;> simp_all)
  | closeStep ok =>
    simp only [GC.closeNext] at hs
    rcases p2 with p2 | p2 <;> simp [p2] at hs

/-- C171, if nothing is left in `closeChan`: when `Consume`, and whatever restarts come after it, have done their work, each of the partition consumers made has been started.
Missing for the full statement: the first `Consume` after a `Close` (`C171_violated_every_group`), and consumers without a group (`C171_violated_every_closed`). -/
theorem C171_started_partial (s s1 s2 : GC) (ht : s.token = false) (hcl : s.close = .none ∨ s.close = .done) (h1 : s.step false .consume = some s1) (as : List GroupAct)
    (hn : GroupAct.close ∉ as) (h : GC.run false as s1 = some s2) (hw : s2.work = .idle) : ∀ i ∈ s2.consumers, i ∈ s2.started := by
  have hi : ReuseInv s1 := by
    unfold GC.step at h1
    split at h1
    · cases h1
    simp only at h1
    split at h1 <;> cases h1
    rename_i hx
    constructor <;> simp_all
  refine ReuseInv.idle ?_ hw
  clear h1 hw
  induction as generalizing s1 with
  | nil => cases h; exact hi
  | cons a as ih =>
    simp only [GC.run] at h
    cases h2 : s1.step false a with
    | none => rw [h2] at h; cases h
    | some t =>
      rw [h2] at h
      exact ih t (fun hx => hn (by simp [hx])) h (hi.step (fun hx => hn (by simp [hx])) h2)

/-! ## Consumers without a group -/

/-- **C171 is violated for every consumer without a group.** Once it was closed, by whatever run, `Consume` starts nothing any more, whatever happens meanwhile; it returns the nil channel, from
which nothing can ever be received, and no error. It does return: two steps suffice. -/
theorem C171_violated_every_closed (s s1 : MC) (hc : s.closed = true) (h1 : s.step false .consume = some s1) :
    (∀ as s2, MC.run false as s1 = some s2 → s2.started = s.started ∧ (s2.consume = .idle → s2.returned = some false)) ∧
    ∃ s2, MC.run false [.step true 0, .step true 0] s1 = some s2 ∧ s2.consume = .idle := by
  have hcr : s.crashed = false ∧ s.consume = .idle ∧ s1 = { s with consume := .asking } := by
    unfold MC.step at h1
    split at h1
    · cases h1
    simp only at h1
    split at h1 <;> cases h1
    rename_i hx hy
    exact ⟨by simpa using hx, hy.1, rfl⟩
  obtain ⟨hcr, hci, rfl⟩ := hcr
  refine ⟨?_, _, by simp [MC.run, MC.step, MC.consumeStep, hcr, hc]; rfl, rfl⟩
  have key : ∀ (as : List MultiAct) (u u' : MC), MC.run false as u = some u' → u.closed = true ∧ u.started = s.started ∧
      (u.consume = .asking ∨ u.consume = .checking ∨ u.consume = .idle ∧ u.returned = some false) →
      u'.closed = true ∧ u'.started = s.started ∧ (u'.consume = .asking ∨ u'.consume = .checking ∨ u'.consume = .idle ∧ u'.returned = some false) := by
    intro as
    induction as with
    | nil => intro u u' h hp; cases h; exact hp
    | cons a as ih =>
      intro u u' h hp
      simp only [MC.run] at h
      cases h2 : u.step false a with
      | none => rw [h2] at h; cases h
      | some t =>
        rw [h2] at h
        refine ih t u' h ?_
        obtain ⟨q1, q2, q3⟩ := hp
        unfold MC.step at h2
        split at h2
        · cases h2
        cases a with
        | consume => simp only at h2; split at h2 <;> cases h2; exact ⟨q1, q2, .inl rfl⟩
        | close => simp only at h2; split at h2 <;> cases h2; exact ⟨rfl, q2, q3⟩
        | step ok n =>
          simp only [MC.consumeStep] at h2
          rcases q3 with q3 | q3 | ⟨q3, q4⟩ <;> simp only [q3, q1, if_true, Option.some.injEq] at h2
          · subst h2; exact ⟨rfl, q2, .inr (.inl rfl)⟩
          · subst h2; exact ⟨rfl, q2, .inr (.inr ⟨rfl, rfl⟩)⟩
          · cases h2
        | closeStep timeout =>
          simp only [MC.closeNext, MC.stopOne] at h2
          repeat' split at h2
          all_goals first | (cases h2; done) | (cases h2; exact ⟨q1, q2, q3⟩)
  intro as s2 h
  obtain ⟨-, k2, k3⟩ := key as _ s2 h ⟨hc, rfl, .inl rfl⟩
  refine ⟨k2, fun hi => ?_⟩
  rcases k3 with k3 | k3 | ⟨-, k3⟩
  · rw [hi] at k3; cases k3
  · rw [hi] at k3; cases k3
  · exact k3

/-- a consumer of two partitions, closed in good order -/
example : ∃ s, GC.run true (joinTwo ++ List.replicate 4 (.work false) ++ [.close] ++ List.replicate 7 (.closeStep true)) {} = some s ∧ s.close = .done ∧ s.started = [0, 1] :=
  ⟨_, rfl, by decide, by decide⟩

/-- the first `Consume` -/
example : ∃ s1, GC.step false .consume {} = some s1 ∧ ∃ s2, GC.run false (joinTwo.tail ++ List.replicate 4 (.work false)) s1 = some s2 ∧ s2.work = .idle ∧ s2.consumers = [0, 1] :=
  ⟨_, rfl, _, rfl, by decide, by decide⟩

/-- a consumer without a group, closed, and `Consume` called again -/
example : ∃ s s1, MC.run true (consumeTwo ++ [.close, .closeStep false, .closeStep false, .closeStep false, .closeStep false]) {} = some s ∧ s.closed = true ∧
    s.step false .consume = some s1 :=
  ⟨_, _, rfl, by decide, rfl⟩

end Healer
