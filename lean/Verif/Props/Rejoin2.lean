import Verif.Props.Rejoin

/-!
# C136: errors after which the coordinator is not looked up again
-/

namespace Healer

/-- what a failed join shows: the request, and a pause unless the error is one of three -/
def joinFailure (s : Membership) (e : Err) : List GroupSeen :=
  .exchange (.join s.node s.memberID) (.failed e) :: if AtOnce e then [] else [.pause]

theorem stuck_step (s : Membership) (hc : s.closed = false) (ha : s.available = true) (hp : s.pos = .joining) (e : Err)
    (he : ¬ (NotCoordinator e ∨ Gone e)) :
    s.step (.answer (.failed e)) = some ({ s with memberID := if e.is (.kafka 25) then [] else s.memberID }.note (joinFailure s e)) := by
  have hl : joinLoses e = false := by
    cases h : joinLoses e with
    | false => rfl
    | true => exact absurd ((joinLoses_iff e).mp h) he
  obtain ⟨pos, closed, joined, available, node, memberID, generationID, ifLeader, members, topics, log⟩ := s
  simp only at hc ha hp
  subst hc ha hp
  simp only [Membership.step, Membership.afterJoin, Membership.note, Membership.refuse, Membership.retry, Membership.top, hl, joinFailure]
  by_cases h : AtOnce e
  · have h' : (e.is (.kafka 22) || e.is (.kafka 25) || e.is (.kafka 27)) = true := by
      rcases h with h | h | h <;> simp [h]
    simp [h, h']
  · have h' : (e.is (.kafka 22) || e.is (.kafka 25) || e.is (.kafka 27)) = false := by
      simp only [AtOnce, not_or, Bool.not_eq_true] at h
      simp [h]
    simp [h, h']

/-- **C136, negation of the recovery.**  Whatever went before, and for every sequence of errors of which none is among those the code
recognises: a consumer that is joining dials the coordinator it knows again after each of them, and never asks who the coordinator is now. -/
theorem C136_violated_every_other (s : Membership) (hc : s.closed = false) (ha : s.available = true) (hp : s.pos = .joining) (es : List Err)
    (he : ∀ e ∈ es, ¬ (NotCoordinator e ∨ Gone e)) :
    ∃ s' seen, Membership.run (es.map fun e => .answer (.failed e)) s = some s' ∧ s'.pos = .joining ∧ s'.closed = false ∧ s'.joined = s.joined ∧
      s'.log = s.log ++ seen ∧ (seen.filter (· ≠ .pause)).length = es.length ∧
      ∀ x ∈ seen, x = .pause ∨ ∃ member, ∃ e ∈ es, x = .exchange (.join s.node member) (.failed e) := by
  induction es generalizing s with
  | nil => exact ⟨s, [], rfl, hp, hc, rfl, by simp, rfl, by simp⟩
  | cons e es ih =>
    have h1 := stuck_step s hc ha hp e (he e (by simp))
    obtain ⟨s', seen, r1, r2, r3, r4, r5, r6, r7⟩ := ih ({ s with memberID := if e.is (.kafka 25) then [] else s.memberID }.note (joinFailure s e))
      hc ha hp (fun x hx => he x (by simp [hx]))
    refine ⟨s', joinFailure s e ++ seen, ?_, r2, r3, r4, ?_, ?_, ?_⟩
    · simp only [List.map_cons, Membership.run, h1]
      exact r1
    · rw [r5]; simp [Membership.note]
    · rw [List.filter_append, List.length_append, r6, joinFailure]
      split <;> simp <;> omega
    · intro x hx
      rcases List.mem_append.1 hx with hx | hx
      · unfold joinFailure at hx
        simp only [List.mem_cons] at hx
        rcases hx with hx | hx
        · exact .inr ⟨s.memberID, e, by simp, hx⟩
        · split at hx
          · simp at hx
          · exact .inl (by simpa using hx)
      · rcases r7 x hx with h | ⟨m, e', h1, h2⟩
        · exact .inl h
        · exact .inr ⟨m, e', by simp [h1], h2⟩

/-- the host has disappeared, or its name is not known any more -/
example : (∀ e ∈ [noRoute, .other "dial tcp: lookup kafka-1: no such host"], ¬ (NotCoordinator e ∨ Gone e)) ∧
    ∃ s, Membership.run [.answer (.found 1)] {} = some s ∧ s.closed = false ∧ s.available = true ∧ s.pos = .joining :=
  ⟨by decide, _, rfl, rfl, rfl, rfl⟩

end Healer
