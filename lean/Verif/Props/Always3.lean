import Verif.Props.GroupConsumer

/-!
# Faults shown for all states: closing a group consumer

As `Verif.Props.Always`, for `GroupConsumer.Close` and `AwaitClose`.
-/

namespace Healer

/-- C44 fails in every state in which partition consumers are made and none is counted yet (the goroutine that made them waits to be heard, or has not
called `wg.Add` for the first one): `Close` crashes the program. -/
theorem C44_violated_every_unstarted (s : GC) (h0 : s.crashed = false) (hc : s.close = .none ∨ s.close = .done) (ht : s.token = false)
    (hw : s.work = .selecting ∨ ∃ l, s.work = .starting l) (i : Nat) (rest : List Nat) (hs : s.consumers = i :: rest) (hn : s.counter = 0) (ok : Bool) :
    (GC.run false [.close, .closeStep ok, .closeStep ok, .closeStep ok] s).map GC.crashed = some true := by
  have hh : s.work.holds = false := by rcases hw with h | ⟨l, h⟩ <;> rw [h] <;> rfl
  rcases hc with hc | hc <;>
    simp [GC.run, GC.step, GC.closeNext, GC.stopOne, h0, hc, ht, hh, hs, hn]

example : (GC.run false joinTwo {}).map (fun s => (s.crashed, s.close, s.token)) = some (false, .none, false) ∧
    (GC.run false joinTwo {}).map (fun s => (s.work, s.consumers, s.counter)) = some (.selecting, [0, 1], 0) := by decide +kernel

/-- the goroutine starts the consumers it was given -/
theorem work_starts : ∀ (l : List Nat) (s : GC), s.crashed = false → s.work = .starting l →
    GC.run false (List.replicate l.length (.work false)) s =
      some { s with counter := s.counter + l.length, started := s.started ++ l, work := .starting [] }
  | [], s, _, hw => by simp [GC.run, ← hw]
  | i :: rest, s, h0, hw => by
    have hs : s.step false (.work false) = some { s with counter := s.counter + 1, started := s.started ++ [i], work := .starting rest } := by
      simp [GC.step, GC.workStep, h0, hw]
    have := work_starts rest { s with counter := s.counter + 1, started := s.started ++ [i], work := .starting rest } h0 rfl
    rw [List.length_cons, List.replicate_succ, GC.run, hs, Option.bind_some, this]
    simp only [Option.some.injEq, GC.mk.injEq, true_and, List.append_assoc, List.singleton_append, and_true]
    omega

/-- C100 fails in every state in which `Close` is done while the assignment is asked for: whatever number of partitions is assigned, all of
them may be consumed afterwards, and nobody stops them. -/
theorem C100_violated_every_assignment (s : GC) (h0 : s.crashed = false) (hc : s.close = .done) (hw : s.work = .selecting) (hj : s.join = .syncing)
    (n : Nat) : ∃ s', GC.run false ([.join true n, .work false] ++ List.replicate n (.work false)) s = some s' ∧ s'.close = .done ∧
      s'.started = s.started ++ (List.range n).map (s.made + ·) ∧ s'.stopped = s.stopped ∧ s'.counter = s.counter + n := by
  have h1 : s.step false (.join true n) = some { s with consumers := (List.range n).map (s.made + ·), made := s.made + n, join := .ready } := by
    simp [GC.step, GC.joinStep, h0, hj]
  have h2 : GC.step false (.work false) { s with consumers := (List.range n).map (s.made + ·), made := s.made + n, join := .ready } =
      some { s with consumers := (List.range n).map (s.made + ·), made := s.made + n, join := .none, joined := true, work := .starting ((List.range n).map (s.made + ·)) } := by
    simp [GC.step, GC.workStep, h0, hw]
  have h3 := work_starts ((List.range n).map (s.made + ·)) { s with consumers := (List.range n).map (s.made + ·), made := s.made + n, join := .none, joined := true, work := .starting ((List.range n).map (s.made + ·)) } h0 rfl
  rw [List.length_map, List.length_range] at h3
  rw [List.cons_append, GC.run, h1, Option.bind_some, List.cons_append, GC.run, h2, Option.bind_some, List.nil_append, h3]
  exact ⟨_, rfl, hc, rfl, rfl, rfl⟩

example : (GC.run false ([.consume, .work false, .join true 0, .join true 0, .close] ++ List.replicate 5 (.closeStep true)) {}).map
    (fun s => (s.crashed, s.close, s.work, s.join)) = some (false, .done, .selecting, .syncing) := by decide +kernel

/-- C101 fails in every state in which `Close` comes while a restart has stopped the partition consumers: the group is left without a
request, and who was a member still is one for the coordinator. -/
theorem C101_violated_every_restart (s : GC) (h0 : s.crashed = false) (hc : s.close = .none ∨ s.close = .done) (ht : s.token = false)
    (hw : s.work = .stopped) (hs : s.consumers = []) (hn : s.counter = 0) (t ok : Bool) :
    ∃ s', GC.run false ([.work t, .close] ++ List.replicate 5 (.closeStep ok)) s = some s' ∧ s'.close = .done ∧ s'.member = s.member := by
  rcases hc with hc | hc <;>
    simp [GC.run, GC.step, GC.closeNext, GC.workStep, WorkAt.holds, h0, hc, ht, hs, hn, hw, List.replicate_succ]

/-- joined with two partitions, started; then a restart, which has stopped them -/
example : (GC.run false (joinTwo ++ List.replicate 4 (.work false) ++ [.restart, .work false, .work false, .work false]) {}).map
      (fun s => (s.crashed, s.close, s.token)) = some (false, .none, false) ∧
    (GC.run false (joinTwo ++ List.replicate 4 (.work false) ++ [.restart, .work false, .work false, .work false]) {}).map
      (fun s => (s.work, s.consumers, s.counter, s.member)) = some (.stopped, [], 0, true) := by decide +kernel

/-- where `Close` is, while nothing is started after it -/
structure ClosedInv (s : GC) : Prop where
  idle : s.close ≠ .none → s.work = .idle
  token : s.close ≠ .none → s.close ≠ .sending → s.token = true

theorem ClosedInv.step {a : GroupAct} {s s' : GC} (h : s.step true a = some s') (hi : ClosedInv s) : ClosedInv s' := by
  obtain ⟨h1, h2⟩ := hi
  unfold GC.step at h
  split at h
  · cases h
  · cases a with
    | consume => constructor <;> grind
    | restart => constructor <;> grind
    | work token =>
      simp only [GC.workStep] at h
      split at h <;> (try simp only [GC.stopOne] at h) <;> constructor <;> grind
    | join ok n =>
      simp only [GC.joinStep] at h
      split at h <;> constructor <;> grind
    | close => constructor <;> grind [GC.busy]
    | closeStep ok =>
      simp only [GC.closeNext] at h
      split at h <;> (try simp only [GC.stopOne] at h) <;> constructor <;> grind

/-- waiting for a place in `closeChan` -/
def Waits (s : GC) : Prop := s.close = .sending ∧ s.token = true ∧ s.work = .idle

theorem Waits.step {a : GroupAct} {s s' : GC} (h : s.step true a = some s') (hi : Waits s) : Waits s' := by
  obtain ⟨h1, h2, h3⟩ := hi
  unfold Waits
  unfold GC.step at h
  split at h
  · cases h
  · cases a with
    | consume => grind
    | restart => grind
    | work token =>
      simp only [GC.workStep] at h
      split at h <;> (try simp only [GC.stopOne] at h) <;> grind
    | join ok n =>
      simp only [GC.joinStep] at h
      split at h <;> grind
    | close => grind
    | closeStep ok =>
      simp only [GC.closeNext] at h
      split at h <;> (try simp only [GC.stopOne] at h) <;> grind

/-- C102 fails for every second call, however the consumer was used before: once `Close` is done, another `Close` waits for ever, unless
the consumer is used again. -/
theorem C102_violated_every_second (as : List GroupAct) (s : GC) (h : GC.run true as {} = some s) (hd : s.close = .done) (as' : List GroupAct) (s' : GC)
    (h' : GC.run true (.close :: as') s = some s') : s'.close = .sending := by
  have hi : ClosedInv s := GC.run_induction (P := ClosedInv) (fun _ _ _ hs hi => hi.step hs) as {} s h ⟨by simp, by simp⟩
  have hw := hi.idle (by rw [hd]; simp)
  have ht := hi.token (by rw [hd]; simp) (by rw [hd]; simp)
  rw [GC.run] at h'
  cases hs : s.step true .close with
  | none => rw [hs] at h'; cases h'
  | some s1 =>
    rw [hs, Option.bind_some] at h'
    have h1 : Waits s1 := by
      unfold GC.step at hs
      split at hs
      · cases hs
      · simp only at hs
        split at hs
        · cases hs; exact ⟨rfl, ht, hw⟩
        · cases hs
    exact (GC.run_induction (P := Waits) (fun _ _ _ hs hi => hi.step hs) as' s1 s' h' h1).1

end Healer
