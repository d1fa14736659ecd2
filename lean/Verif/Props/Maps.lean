import Verif.Model.Maps

/-!
# C160: concurrent use of the library's objects does not make the runtime end the process
-/

namespace Healer

namespace RaceMap

/-- what is true while all calls take the lock: whoever is between the look-up and the end of the assignment holds it, and a write is under way only if the holder is assigning -/
structure Guarded (s : RaceMap) : Prop where
  noFatal : s.fatal = false
  inside : ∀ i, s.pos i = .ready ∨ s.pos i = .done ∨ s.holder = some i
  writing : s.writing = true → ∃ i k, s.holder = some i ∧ s.pos i = .assigning k
  assigning : ∀ i k, s.pos i = .assigning k → s.writing = true
  free : s.holder = none → s.writing = false

theorem Guarded.step {s s' : RaceMap} (h : Guarded s) (c : MapCall) (i : Nat) (hs : s.step true c i = some s') : Guarded s' := by
  obtain ⟨h1, h2, h3, h4, h5⟩ := h
  have hw : ∀ p, s.holder = some i → s.pos i = p → (∀ k, p ≠ .assigning k) → s.writing = false := by
    intro p hh hp hna
    cases hw : s.writing with
    | false => rfl
    | true =>
      obtain ⟨j, k, hj, hk⟩ := h3 hw
      rw [hh] at hj
      cases hj
      exact absurd (hp ▸ hk) (hna k)
  simp only [RaceMap.step, h1, Bool.false_eq_true, if_false] at hs
  split at hs
  case h_1 hp =>
    simp only [begin, Bool.true_and, if_true] at hs
    split at hs
    · cases hs
    · rename_i hh
      have hh : s.holder = none := by simpa using hh
      have hall : ∀ j, s.pos j = .ready ∨ s.pos j = .done := fun j => by
        rcases h2 j with h | h | h
        · exact .inl h
        · exact .inr h
        · rw [hh] at h; cases h
      have hna : ∀ j k, s.pos j ≠ .assigning k := fun j k hk => by rcases hall j with h | h <;> rw [h] at hk <;> cases hk
      have hw0 := h5 hh
      cases c with
      | get k =>
        simp only [access, hw0, Bool.false_eq_true, if_false, Option.some.injEq] at hs
        subst hs
        by_cases hk : k ∈ s.keys
        · rw [if_pos hk]
          refine ⟨h1, fun j => ?_, fun h => (by first | (rw [show s.writing = true from h] at hw0; cases hw0) | exact absurd h (by simp [release, goto])), fun j k' hj => ?_, fun _ => (by first | exact hw0 | rfl)⟩
          · by_cases hj : j = i
            · exact .inr (.inl (by simp [release, goto, hj]))
            · rcases hall j with h | h
              · exact .inl (by simp [release, goto, hj, h])
              · exact .inr (.inl (by simp [release, goto, hj, h]))
          · by_cases hji : j = i
            · simp [release, goto, hji] at hj
            · exact absurd (by simpa [release, goto, hji] using hj) (hna j k')
        · rw [if_neg hk]
          refine ⟨h1, fun j => ?_, fun h => (by first | (rw [show s.writing = true from h] at hw0; cases hw0) | exact absurd h (by simp [release, goto])), fun j k' hj => ?_, fun h => (by cases h)⟩
          · by_cases hj : j = i
            · exact .inr (.inr (by simp [goto, hj]))
            · rcases hall j with h | h
              · exact .inl (by simp [goto, hj, h])
              · exact .inr (.inl (by simp [goto, hj, h]))
          · by_cases hji : j = i
            · simp [goto, hji] at hj
            · exact absurd (by simpa [goto, hji] using hj) (hna j k')
      | range =>
        simp only [access, hw0, Bool.false_eq_true, if_false, Option.some.injEq] at hs
        subst hs
        refine ⟨h1, fun j => ?_, fun h => (by first | (rw [show s.writing = true from h] at hw0; cases hw0) | exact absurd h (by simp [release, goto])), fun j k' hj => ?_, fun h => (by cases h)⟩
        · by_cases hj : j = i
          · exact .inr (.inr (by simp [goto, hj]))
          · rcases hall j with h | h
            · exact .inl (by simp [goto, hj, h])
            · exact .inr (.inl (by simp [goto, hj, h]))
        · by_cases hji : j = i
          · simp [goto, hji] at hj
          · exact absurd (by simpa [goto, hji] using hj) (hna j k')
  case h_2 k hp =>
    have hh : s.holder = some i := by
      rcases h2 i with h | h | h
      · rw [hp] at h; cases h
      · rw [hp] at h; cases h
      · exact h
    have hw0 := hw _ hh hp (by simp)
    simp only [access, hw0, Bool.false_eq_true, if_false, Option.some.injEq] at hs
    subst hs
    refine ⟨by first | exact h1 | rfl, fun j => ?_, fun _ => ⟨i, k, hh, by simp [goto]⟩, fun _ _ _ => rfl, fun h => (by rw [show s.holder = none from h] at hh; cases hh)⟩
    by_cases hj : j = i
    · exact .inr (.inr (by rw [hj]; exact hh))
    · rcases h2 j with h | h | h
      · exact .inl (by simp [goto, hj, h])
      · exact .inr (.inl (by simp [goto, hj, h]))
      · exact .inr (.inr h)
  case h_3 k hp =>
    have hh : s.holder = some i := by
      rcases h2 i with h | h | h
      · rw [hp] at h; cases h
      · rw [hp] at h; cases h
      · exact h
    rw [if_pos (h4 i k hp)] at hs
    cases hs
    have hoth : ∀ j, j ≠ i → s.pos j = .ready ∨ s.pos j = .done := fun j hj => by
      rcases h2 j with h | h | h
      · exact .inl h
      · exact .inr h
      · rw [hh] at h; cases h; exact absurd rfl hj
    refine ⟨by first | exact h1 | rfl, fun j => ?_, fun h => (by cases h), fun j k' hj => ?_, fun _ => rfl⟩
    · by_cases hj : j = i
      · exact .inr (.inl (by simp [release, goto, hj]))
      · rcases hoth j hj with h | h
        · exact .inl (by simp [release, goto, hj, h])
        · exact .inr (.inl (by simp [release, goto, hj, h]))
    · by_cases hji : j = i
      · simp [release, goto, hji] at hj
      · have hj' : s.pos j = .assigning k' := by simpa [release, goto, hji] using hj
        rcases hoth j hji with h | h <;> rw [h] at hj' <;> cases hj'
  case h_4 hp =>
    have hh : s.holder = some i := by
      rcases h2 i with h | h | h
      · rw [hp] at h; cases h
      · rw [hp] at h; cases h
      · exact h
    have hw0 := hw _ hh hp (by simp)
    cases hs
    have hoth : ∀ j, j ≠ i → s.pos j = .ready ∨ s.pos j = .done := fun j hj => by
      rcases h2 j with h | h | h
      · exact .inl h
      · exact .inr h
      · rw [hh] at h; cases h; exact absurd rfl hj
    refine ⟨h1, fun j => ?_, fun h => (by first | (rw [show s.writing = true from h] at hw0; cases hw0) | exact absurd h (by simp [release, goto])), fun j k' hj => ?_, fun _ => (by first | exact hw0 | rfl)⟩
    · by_cases hj : j = i
      · exact .inr (.inl (by simp [release, goto, hj]))
      · rcases hoth j hj with h | h
        · exact .inl (by simp [release, goto, hj, h])
        · exact .inr (.inl (by simp [release, goto, hj, h]))
    · by_cases hji : j = i
      · simp [release, goto, hji] at hj
      · have hj' : s.pos j = .assigning k' := by simpa [release, goto, hji] using hj
        rcases hoth j hji with h | h <;> rw [h] at hj' <;> cases hj'
  case h_5 n hp =>
    have hh : s.holder = some i := by
      rcases h2 i with h | h | h
      · rw [hp] at h; cases h
      · rw [hp] at h; cases h
      · exact h
    have hw0 := hw _ hh hp (by simp)
    simp only [access, hw0, Bool.false_eq_true, if_false, Option.some.injEq] at hs
    subst hs
    refine ⟨h1, fun j => ?_, fun h => (by first | (rw [show s.writing = true from h] at hw0; cases hw0) | exact absurd h (by simp [release, goto])), fun j k' hj => ?_, fun h => (by rw [show s.holder = none from h] at hh; cases hh)⟩
    · by_cases hj : j = i
      · exact .inr (.inr (by rw [hj]; exact hh))
      · rcases h2 j with h | h | h
        · exact .inl (by simp [goto, hj, h])
        · exact .inr (.inl (by simp [goto, hj, h]))
        · exact .inr (.inr h)
    · by_cases hji : j = i
      · simp [goto, hji] at hj
      · exact h4 j k' (by simpa [goto, hji] using hj)
  case h_6 => cases hs

/-- what is true while nobody has anything to put in -/
structure Warm (keys : List Nat) (s : RaceMap) : Prop where
  noFatal : s.fatal = false
  noWrite : s.writing = false
  same : s.keys = keys
  calm : ∀ i k, s.pos i ≠ .missing k ∧ s.pos i ≠ .assigning k

theorem Warm.step {keys : List Nat} {s s' : RaceMap} (h : Warm keys s) (locks : Bool) (c : MapCall) (hc : ∀ k, c = .get k → k ∈ keys) (i : Nat)
    (hs : s.step locks c i = some s') : Warm keys s' := by
  obtain ⟨h1, h2, h3, h4⟩ := h
  have hgo : ∀ (p : MapAt), (∀ k, p ≠ .missing k ∧ p ≠ .assigning k) → ∀ j k, (s.goto i p).pos j ≠ .missing k ∧ (s.goto i p).pos j ≠ .assigning k := by
    intro p hp j k
    by_cases hj : j = i
    · simp only [goto, hj, if_true]; exact hp k
    · simp only [goto, hj, if_false]; exact h4 j k
  simp only [RaceMap.step, h1, Bool.false_eq_true, if_false] at hs
  split at hs
  case h_1 hp =>
    simp only [begin] at hs
    split at hs
    · cases hs
    · cases c with
      | get k =>
        have hk : k ∈ s.keys := by rw [h3]; exact hc k rfl
        cases locks <;>
          (simp only [Bool.false_eq_true, if_false, if_true, access, h2, if_pos hk, Option.some.injEq] at hs
           subst hs
           exact ⟨h1, by first | exact h2 | rfl, h3, hgo .done (by simp)⟩)
      | range =>
        cases locks <;>
          (simp only [Bool.false_eq_true, if_false, if_true, access, h2, Option.some.injEq] at hs
           subst hs
           exact ⟨h1, by first | exact h2 | rfl, h3, hgo (.ranging s.keys.length) (by simp)⟩)
  case h_2 k hp => exact absurd hp (h4 i k).1
  case h_3 k hp => exact absurd hp (h4 i k).2
  case h_4 hp =>
    cases hs
    cases locks <;> exact ⟨h1, h2, h3, hgo .done (by simp)⟩
  case h_5 n hp =>
    simp only [access, h2, Bool.false_eq_true, if_false, Option.some.injEq] at hs
    subst hs
    exact ⟨h1, h2, h3, hgo (.ranging n) (by simp)⟩
  case h_6 => cases hs

end RaceMap

/-- **C160**, look-ups: any number of goroutines call `GetBroker`, for any nodes.  However their steps interleave, the runtime never finds a reason to end the process.
Missing for the full statement: `Close` at the same time (`C160_violated_close`). -/
theorem C160_lookups_partial (keys : List Nat) (nodes : Nat → Nat) (is : List Nat) (s : RaceMap)
    (h : RaceMap.run brokersLocks (fun i => .get (nodes i)) is { keys } = some s) : s.fatal = false := by
  have hg : RaceMap.Guarded { keys } := ⟨rfl, fun _ => .inl rfl, fun h => (by cases h), fun _ _ h => (by cases h), fun _ => rfl⟩
  revert h
  generalize ({ keys } : RaceMap) = s0 at hg
  intro h
  induction is generalizing s0 with
  | nil => cases h; exact hg.noFatal
  | cons i is ih =>
    simp only [RaceMap.run] at h
    split at h
    · cases h
    · rename_i s1 h1
      exact ih s1 (hg.step _ i h1) h

/-- **C160**, when everything is known: any number of goroutines add messages with keys, or look brokers up, while others close the producer or the client.  If the partition
producers and brokers needed are in the maps from the beginning, the runtime never finds a reason to end the process, lock or no lock.
Missing for the full statement: the first messages for a partition (`C160_violated_keyed`) and the first look-up of a broker while the object is closed (`C160_violated_close`,
`C160_violated_producer_close`). -/
theorem C160_known_partial (locks : MapCall → Bool) (keys : List Nat) (calls : Nat → MapCall) (hc : ∀ i k, calls i = .get k → k ∈ keys) (is : List Nat) (s : RaceMap)
    (h : RaceMap.run locks calls is { keys } = some s) : s.fatal = false := by
  have hg : RaceMap.Warm keys { keys } := ⟨rfl, rfl, rfl, fun _ _ => ⟨by simp, by simp⟩⟩
  revert h
  generalize ({ keys } : RaceMap) = s0 at hg
  intro h
  induction is generalizing s0 with
  | nil => cases h; exact hg.noFatal
  | cons i is ih =>
    simp only [RaceMap.run] at h
    split at h
    · cases h
    · rename_i s1 h1
      exact ih s1 (hg.step _ _ (hc i) i h1) h

/-- goroutine 0 closes, all others look up what has their number -/
def closeAndGet : Nat → MapCall
  | 0 => .range
  | i + 1 => .get (i + 1)

example : (RaceMap.run brokersLocks (fun i => .get (i % 2)) [0, 0, 0, 1, 1, 1, 2, 3] { keys := [7] }).map (fun s => (s.keys, s.fatal)) = some ([1, 0, 7], false) := by decide

example : (RaceMap.run brokersLocks (fun i => .get (i % 2)) [0, 1] { keys := [7] }).isNone = true := by decide

example : (RaceMap.run producerLocks closeAndGet [0, 1, 2, 0, 0, 0] { keys := [1, 2] }).map (fun s => (s.fatal, s.pos 0)) = some (false, .done) := by decide

/-- **C160, negation.**  A client is closed while another goroutine looks up a broker for the first time: `Close` goes through the map without the lock, and meets the assignment of `GetBroker`. -/
theorem C160_violated_close : (RaceMap.run brokersLocks closeAndGet [0, 1, 1, 0] { keys := [7] }).map RaceMap.fatal = some true := by decide

/-- **C160, negation.**  Two goroutines add the first messages for two partitions: both write to the map of partition producers. -/
theorem C160_violated_keyed : (RaceMap.run producerLocks closeAndGet [1, 2, 1, 2] {}).map RaceMap.fatal = some true := by decide

/-- **C160, negation.**  A goroutine finds the partition producer it needs in the map, while another one writes to the map for another partition. -/
theorem C160_violated_read : (RaceMap.run producerLocks closeAndGet [1, 1, 2] { keys := [2] }).map RaceMap.fatal = some true := by decide

/-- **C160, negation.**  A producer is closed while the first message for a partition is added. -/
theorem C160_violated_producer_close : (RaceMap.run producerLocks closeAndGet [1, 1, 0] { keys := [7] }).map RaceMap.fatal = some true := by decide

end Healer
