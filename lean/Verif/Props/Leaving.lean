import Verif.Model.Leaving

/-!
# C175: closing returns within the time given
-/

namespace Healer

/-! ## Specification -/

/-- The loop was running at `t`, and no round takes longer than `d`. -/
def Rounds.Within (d t : Nat) (r : Rounds) : Prop := r.start ≤ t ∧ ∀ k, r.took k ≤ d

/-- A consumer of a partition on which nothing happens: every fetch takes the time the broker was told to wait. -/
def idleRounds (wait start : Nat) : Rounds := ⟨start, fun _ => wait⟩

/-- `n` consumers, the rounds of which began at different times: each was late for the call of `Stop` by one. -/
def idleConsumers (wait t : Nat) : Nat → List Rounds
  | 0 => []
  | n + 1 => idleRounds wait ((t - 1) % wait) :: idleConsumers wait (t + (wait - 1)) n

/-! ## Lemmas -/

theorem endsAt_within {d t u : Nat} {r : Rounds} (hr : r.Within d t) (h : r.EndsAt t u) : t ≤ u ∧ u ≤ t + d := by
  obtain ⟨k, rfl, h1, h2⟩ := h
  refine ⟨h1, ?_⟩
  cases k with
  | zero => have := hr.1; simp only [Rounds.begin] at h1 ⊢; omega
  | succ k =>
    have := h2 k (Nat.lt_succ_self k)
    have := hr.2 k
    simp only [Rounds.begin]
    omega

theorem stopAll_within {d : Nat} (rs : List Rounds) (t u : Nat) (hr : ∀ r ∈ rs, r.Within d t) (h : StopAll rs t u) :
    t ≤ u ∧ u ≤ t + rs.length * d := by
  induction rs generalizing t with
  | nil => cases h; simp
  | cons r rs ih =>
    obtain ⟨v, h1, h2⟩ := h
    obtain ⟨k1, k2⟩ := endsAt_within (hr r List.mem_cons_self) h1
    obtain ⟨k3, k4⟩ := ih v (fun x hx => ⟨Nat.le_trans (hr x (List.mem_cons_of_mem _ hx)).1 k1, (hr x (List.mem_cons_of_mem _ hx)).2⟩) h2
    refine ⟨by omega, ?_⟩
    rw [List.length_cons, Nat.succ_mul]
    omega

theorem idle_begin (wait start k : Nat) : (idleRounds wait start).begin k = start + k * wait := by
  induction k with
  | zero => simp [Rounds.begin, idleRounds]
  | succ k ih => rw [Rounds.begin, ih, Nat.succ_mul]; simp only [idleRounds]; omega

theorem idle_endsAt (wait t : Nat) (hw : 0 < wait) (ht : 0 < t) : (idleRounds wait ((t - 1) % wait)).EndsAt t (t + (wait - 1)) := by
  have hdiv := Nat.mod_add_div (t - 1) wait
  have hb : ∀ k, (idleRounds wait ((t - 1) % wait)).begin k = (t - 1) % wait + k * wait := fun k => idle_begin _ _ k
  refine ⟨(t - 1) / wait + 1, ?_, by omega, fun j hj => ?_⟩
  · rw [hb, Nat.succ_mul, Nat.mul_comm]; omega
  · rw [hb]
    have := Nat.mul_le_mul_right wait (Nat.le_of_lt_succ hj)
    rw [Nat.mul_comm ((t - 1) / wait)] at this
    omega

theorem idle_stopAll (wait : Nat) (hw : 0 < wait) (n t : Nat) (ht : 0 < t) : StopAll (idleConsumers wait t n) t (t + n * (wait - 1)) := by
  induction n generalizing t with
  | zero => simp [idleConsumers, StopAll]
  | succ n ih =>
    refine ⟨t + (wait - 1), idle_endsAt wait t hw ht, ?_⟩
    have := ih (t + (wait - 1)) (by omega)
    rw [Nat.succ_mul, Nat.add_comm (n * (wait - 1)), ← Nat.add_assoc]
    exact this

theorem idle_within (wait : Nat) (hw : 0 < wait) (n t t' : Nat) (ht : wait ≤ t') : ∀ r ∈ idleConsumers wait t n, r.Within wait t' := by
  induction n generalizing t with
  | zero => intro r hr; cases hr
  | succ n ih =>
    intro r hr
    rcases List.mem_cons.1 hr with rfl | hr
    · exact ⟨Nat.le_trans (Nat.le_of_lt (Nat.mod_lt _ hw)) ht, fun _ => Nat.le_refl _⟩
    · exact ih _ r hr

theorem idle_length (wait n t : Nat) : (idleConsumers wait t n).length = n := by
  induction n generalizing t with
  | zero => rfl
  | succ n ih => rw [idleConsumers, List.length_cons, ih]

theorem begin_mono (r : Rounds) (k n : Nat) : r.begin k ≤ r.begin (k + n) := by
  induction n with
  | zero => exact Nat.le_refl _
  | succ n ih => exact Nat.le_trans ih (Nat.le_add_right _ _)

theorem endsAt_round {r : Rounds} {t u k : Nat} (h : r.EndsAt t u) (hk : r.begin k < t) : r.begin (k + 1) ≤ u := by
  obtain ⟨j, rfl, h1, -⟩ := h
  rcases Nat.lt_or_ge k j with hj | hj
  · have := begin_mono r (k + 1) (j - (k + 1)); rwa [Nat.add_sub_cancel' hj] at this
  · have := begin_mono r j (k - j); rw [Nat.add_sub_cancel' hj] at this; omega

theorem stopAll_later (rs : List Rounds) (t u : Nat) (h : StopAll rs t u) : t ≤ u := by
  induction rs generalizing t with
  | nil => exact Nat.le_of_eq h.symm
  | cons r rs ih => obtain ⟨v, ⟨k, rfl, h1, -⟩, h2⟩ := h; exact Nat.le_trans h1 (ih _ h2)

theorem stopAll_round (rs : List Rounds) (t u : Nat) (h : StopAll rs t u) (r : Rounds) (hr : r ∈ rs) (k : Nat) (hk : r.begin k < t) :
    r.begin (k + 1) ≤ u := by
  induction rs generalizing t with
  | nil => cases hr
  | cons x rs ih =>
    obtain ⟨v, h1, h2⟩ := h
    have hv : t ≤ v := by obtain ⟨k, rfl, h1, -⟩ := h1; exact h1
    rcases List.mem_cons.1 hr with rfl | hr
    · exact Nat.le_trans (endsAt_round h1 hk) (stopAll_later rs v u h2)
    · exact ih v h2 hr (by omega)

/-! ## The property -/

/-- What holds: closing takes no longer than one round of each partition consumer after the other, the timeout, and the request to
leave the group.  What is missing: the first part, which the timeout does not bound (`C175_violated_every_idle`). -/
theorem C175_bound_partial (consumers : List Rounds) (timeout : Nat) (rest : Option Nat) (leave t r d : Nat)
    (hd : ∀ c ∈ consumers, c.Within d t) (h : AwaitClose consumers timeout rest leave t r) :
    t ≤ r ∧ r ≤ t + consumers.length * d + timeout + leave := by
  obtain ⟨u, h1, rfl⟩ := h
  obtain ⟨k1, k2⟩ := stopAll_within consumers t u hd h1
  unfold afterStop
  split
  · split <;> omega
  · omega

/-- Closing does not keep to the time given: whenever one of the partition consumers waits for an answer that comes after the
timeout, closing returns after the timeout too, whatever the others do. -/
theorem C175_violated_every_round (consumers : List Rounds) (timeout : Nat) (rest : Option Nat) (leave t r : Nat)
    (h : AwaitClose consumers timeout rest leave t r) (c : Rounds) (hc : c ∈ consumers) (k : Nat) (hk : c.begin k < t)
    (he : t + timeout < c.begin (k + 1)) : t + timeout < r := by
  obtain ⟨u, h1, rfl⟩ := h
  have := stopAll_round consumers t u h1 c hc k hk
  unfold afterStop
  split
  · split <;> omega
  · omega

/-- Nor if the request to leave takes long: whenever what is left ends in time, but the coordinator's answer to the request to leave
comes after the timeout, closing returns no sooner than that answer.  Whenever what is left does not end in time, closing returns no sooner than
the timeout, and the group is not left. -/
theorem C175_violated_every_leave (consumers : List Rounds) (timeout d leave t r : Nat) (hd : d ≤ timeout)
    (h : AwaitClose consumers timeout (some d) leave t r) :
    t + d + leave ≤ r ∧ ∀ rest r', (∀ e, rest = some e → timeout < e) → AwaitClose consumers timeout rest leave t r' → t + timeout ≤ r' := by
  obtain ⟨u, h1, rfl⟩ := h
  have := stopAll_later consumers t u h1
  refine ⟨by simp only [afterStop, if_pos hd]; omega, fun rest r' hr h' => ?_⟩
  obtain ⟨v, h2, rfl⟩ := h'
  have := stopAll_later consumers t v h2
  cases rest with
  | none => simp only [afterStop]; omega
  | some e => simp only [afterStop, if_neg (Nat.not_le.2 (hr e rfl))]; omega

example : AwaitClose [] 10 (some 3) 30 100 133 ∧ AwaitClose [] 10 none 30 100 110 := ⟨⟨100, rfl, rfl⟩, ⟨100, rfl, rfl⟩⟩

/-- Nor if no answer takes as long: for every time to wait for data, every number of partition consumers and every
timeout, there are times at which idle partitions may have been asked, such that closing takes the time to wait, less one, for
each of them, whatever the timeout. -/
theorem C175_violated_every_idle (wait n t : Nat) (hw : 0 < wait) (ht : wait ≤ t) :
    (idleConsumers wait t n).length = n ∧ (∀ c ∈ idleConsumers wait t n, c.Within wait t) ∧
      ∀ timeout, AwaitClose (idleConsumers wait t n) timeout (some 0) 0 t (t + n * (wait - 1)) :=
  ⟨idle_length wait n t, idle_within wait hw n t t ht, fun timeout =>
    ⟨_, idle_stopAll wait hw n t (by omega), by simp [afterStop]⟩⟩

/-- So for every timeout there are numbers of idle partitions with which it is exceeded. -/
theorem C175_violated_every_timeout (wait t timeout : Nat) (hw : 1 < wait) (ht : wait ≤ t) :
    ∃ consumers r, (∀ c ∈ consumers, Rounds.Within wait t c) ∧ AwaitClose consumers timeout (some 0) 0 t r ∧ t + timeout < r := by
  obtain ⟨-, h1, h2⟩ := C175_violated_every_idle wait (timeout + 1) t (by omega) ht
  refine ⟨_, _, h1, h2 timeout, ?_⟩
  have := Nat.mul_le_mul_left (timeout + 1) (show 1 ≤ wait - 1 by omega)
  omega

/-- with the default of 500 ms (config.go:121) and a hundred idle partitions, a `Close` that is to take 30 seconds can take 49.9 -/
example : ∃ cs : List Rounds, cs.length = 100 ∧ AwaitClose cs 30000 (some 0) 0 20000 69900 :=
  ⟨_, (C175_violated_every_idle 500 100 20000 (by decide) (by decide)).1, (C175_violated_every_idle 500 100 20000 (by decide) (by decide)).2.2 30000⟩

/-- a consumer which waits until 60 keeps a closing with timeout 30 from 20 on until 60 -/
example : AwaitClose [idleRounds 50 10, idleRounds 5 3] 30 (some 0) 0 20 63 :=
  ⟨63, ⟨60, ⟨1, rfl, by decide, by decide⟩, 63, ⟨12, rfl, by decide, by decide⟩, rfl⟩, rfl⟩

/-- with other times the same partitions are stopped within one round -/
example : AwaitClose [idleRounds 10 3, idleRounds 10 4, idleRounds 10 5] 30 (some 0) 2 21 27 :=
  ⟨25, ⟨23, ⟨2, rfl, by decide, by decide⟩, 24, ⟨2, rfl, by decide, by decide⟩, 25, ⟨2, rfl, by decide, by decide⟩, rfl⟩, rfl⟩

end Healer
