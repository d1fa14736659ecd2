import Verif.Model.GroupConsumer
import Verif.Props.Consumer2

/-!
# C44, C45, C100-C105, C123: starting and stopping a group consumer; noticing metadata changes
-/

namespace Healer

/-! ## C44 -/

/-- what holds between the counter and the consumers, by the place of the goroutines -/
structure GroupInv (s : GC) : Prop where
  sane : s.crashed = false
  idle : s.close ≠ .none → s.work = .idle ∧ s.join = .none
  token : s.close = .none → s.token = false
  joining : s.work ≠ .selecting → s.join = .none
  -- the counter
  atRest : s.work = .idle → (s.close = .none ∨ s.close = .sending ∨ s.close = .locking) → s.counter = s.consumers.length
  entered : s.work = .entered → s.counter = s.consumers.length
  stopping : ∀ rest, s.work = .stopping rest → s.counter = rest.length
  empty : s.work = .stopped ∨ s.work = .selecting → s.counter = 0
  afterStop : s.work = .stopped → s.consumers = []
  starting : ∀ rest, s.work = .starting rest → s.counter + rest.length = s.consumers.length
  closing : ∀ rest, s.close = .stopping rest → s.counter = rest.length
  closed : s.close = .waiting ∨ s.close = .leaving ∨ s.close = .done → s.counter = 0 ∧ s.consumers = []

theorem GroupInv.init : GroupInv {} := by
  constructor <;> simp

theorem GroupInv.step {a : GroupAct} {s s' : GC} (hi : GroupInv s) (h : s.step true a = some s') : GroupInv s' := by
  obtain ⟨h1, h2, h3, h4, h5, h6, h7, h8, h9, h10, h11, h12⟩ := hi
  unfold GC.step at h
  rw [h1] at h
  simp only [Bool.false_eq_true, if_false] at h
  cases a with
  | consume =>
    simp only at h
    split at h
    · rename_i hc
      obtain ⟨c1, c2, c3⟩ := hc
      have c3 := c3 trivial
      cases h
      constructor <;> simp_all
    · cases h
  | restart =>
    simp only at h
    split at h
    · rename_i hc
      obtain ⟨c1, c2, -, c3⟩ := hc
      have c3 := c3 trivial
      cases h
      constructor <;> simp_all
    · cases h
  | work token =>
    simp only [GC.workStep] at h
    have hcl : s.work ≠ .idle → s.close = .none := by
      intro hw
      by_cases hc : s.close = .none
      · exact hc
      · exact absurd (h2 hc).1 hw
    split at h
    · cases h
    · rename_i i rest hw
      cases h
      have hc := hcl (by simp [hw])
      have := h7 _ hw
      simp only [List.length_cons] at this
      constructor <;> simp_all [GC.stopOne] <;> omega
    · rename_i hw
      cases h
      have hc := hcl (by simp [hw])
      have := h7 _ hw
      constructor <;> simp_all
    · rename_i hw
      have hc := hcl (by simp [hw])
      split at h
      · cases h
        constructor <;> simp_all
      · cases h
    · rename_i hw
      have hc := hcl (by simp [hw])
      split at h
      · rename_i h0
        cases h
        clear h6
        constructor <;> simp_all
      · cases h
    · rename_i hw
      have hc := hcl (by simp [hw])
      have ht := h3 hc
      rw [ht] at h
      simp only [Bool.false_eq_true, false_and, if_false] at h
      split at h
      · cases h
        have := h8 (.inr hw)
        constructor <;> simp_all
      · cases h
    · rename_i i rest hw
      cases h
      have hc := hcl (by simp [hw])
      have := h10 _ hw
      simp only [List.length_cons] at this
      constructor <;> simp_all <;> omega
    · rename_i hw
      cases h
      have hc := hcl (by simp [hw])
      have := h10 _ hw
      constructor <;> simp_all
  | join ok n =>
    simp only [GC.joinStep] at h
    have hw : s.join ≠ .none → s.work = .selecting := by
      intro hj
      by_cases hw : s.work = .selecting
      · exact hw
      · exact absurd (h4 hw) hj
    have hcl : s.join ≠ .none → s.close = .none := by
      intro hj
      by_cases hc : s.close = .none
      · exact hc
      · exact absurd (h2 hc).2 hj
    split at h
    · cases h
    · cases h
    · rename_i hj
      have hw := hw (by simp [hj])
      have hc := hcl (by simp [hj])
      repeat' split at h
      all_goals
        cases h
        constructor <;> simp_all
    · rename_i hj
      have hw := hw (by simp [hj])
      have hc := hcl (by simp [hj])
      cases h
      constructor <;> simp_all
    · rename_i hj
      have hw := hw (by simp [hj])
      have hc := hcl (by simp [hj])
      split at h
      · cases h
        constructor <;> simp_all
      · cases h
        constructor <;> simp_all
  | close =>
    simp only at h
    split at h
    · rename_i hc
      obtain ⟨c1, c2⟩ := hc
      have c2 := c2 trivial
      simp only [GC.busy, Bool.or_eq_false_iff, decide_eq_false_iff_not, ne_eq, Decidable.not_not] at c2
      cases h
      rcases c1 with c1 | c1
      · constructor <;> simp_all
      · have := h12 (.inr (.inr c1))
        constructor <;> simp_all
    · cases h
  | closeStep ok =>
    simp only [GC.closeNext] at h
    split at h
    · cases h
    · cases h
    · rename_i hc
      have := h2 (by simp [hc])
      split at h
      · cases h
      · cases h
        constructor <;> simp_all
    · rename_i hc
      have := h2 (by simp [hc])
      split at h
      · cases h
      · cases h
        constructor <;> simp_all
    · rename_i i rest hc
      have hw := h2 (by simp [hc])
      cases h
      have := h11 _ hc
      simp only [List.length_cons] at this
      constructor <;> simp_all [GC.stopOne] <;> omega
    · rename_i hc
      have hw := h2 (by simp [hc])
      have := h11 _ hc
      cases h
      constructor <;> simp_all
    · rename_i hc
      have hw := h2 (by simp [hc])
      split at h
      · cases h
        constructor <;> simp_all
      · cases h
    · rename_i hc
      have hw := h2 (by simp [hc])
      have := h12 (.inr (.inl hc))
      repeat' split at h
      all_goals
        cases h
        constructor <;> simp_all

theorem GC.run_induction {calm : Bool} {P : GC → Prop} (hstep : ∀ a s s', s.step calm a = some s' → P s → P s') :
    ∀ (as : List GroupAct) (s s' : GC), s.run calm as = some s' → P s → P s'
  | [], s, s', h, hp => by simp only [GC.run, Option.some.injEq] at h; exact h ▸ hp
  | a :: as, s, s', h, hp => by
    simp only [GC.run] at h
    cases h1 : s.step calm a with
    | none => rw [h1] at h; cases h
    | some s1 =>
      rw [h1] at h
      exact GC.run_induction hstep as s1 s' h (hstep a s s1 h1 hp)

theorem GroupInv.run {as : List GroupAct} {s : GC} (h : GC.run true as {} = some s) : GroupInv s :=
  GC.run_induction (fun _ _ _ hs hi => hi.step hs) as {} s h .init

/-- C44: if `Close` is not called while the consumer is joining or being restarted, and nothing is started after it,
the counter never goes negative, in any number of rounds of restarting.
Missing for the full statement: `Close` during (re)joining (`C44_violated`). -/
theorem C44_calm_partial (as : List GroupAct) (s : GC) (h : GC.run true as {} = some s) : s.crashed = false :=
  (GroupInv.run h).sane

/-- join with two partitions, up to the moment when the assignment is known -/
def joinTwo : List GroupAct := [.consume, .work false, .join true 0, .join true 0, .join true 2]

/-- C44, for every interleaving: `Close` and a restart never stop partition consumers at the same time.
Missing for the full statement: `Close` between joining and starting (`C44_violated`). -/
theorem C44_one_at_a_time_partial (as : List GroupAct) (s : GC) (h : GC.run false as {} = some s) :
    ¬ (((∃ l, s.work = .stopping l) ∨ s.work = .stopped) ∧ ((∃ l, s.close = .stopping l) ∨ s.close = .waiting)) := by
  suffices hh : ¬ (s.work.holds = true ∧ s.close.holds = true) by
    rintro ⟨h1, h2⟩
    refine hh ⟨?_, ?_⟩
    · rcases h1 with ⟨l, h1⟩ | h1 <;> rw [h1] <;> rfl
    · rcases h2 with ⟨l, h2⟩ | h2 <;> rw [h2] <;> rfl
  refine GC.run_induction (calm := false) (P := fun s => ¬ (s.work.holds = true ∧ s.close.holds = true)) ?_ as {} s h (by decide)
  intro a s s' hs hp
  unfold GC.step at hs
  split at hs
  · cases hs
  · cases a with
    | consume => grind [WorkAt.holds]
    | restart => grind [WorkAt.holds]
    | work token =>
      simp only [GC.workStep] at hs
      split at hs <;> (try simp only [GC.stopOne] at hs) <;> grind [WorkAt.holds]
    | join ok n =>
      simp only [GC.joinStep] at hs
      split at hs <;> grind
    | close => grind [CloseAt.holds]
    | closeStep ok =>
      simp only [GC.closeNext] at hs
      split at hs <;> (try simp only [GC.stopOne] at hs) <;> grind [CloseAt.holds]

/-- C44 does not hold: `Close` stops the partition consumers after they were made and before they are counted. -/
theorem C44_violated : (GC.run false (joinTwo ++ [.close, .closeStep true, .closeStep true, .closeStep true]) {}).map GC.crashed = some true := by
  decide +kernel

/-- joined, started, restarted with three partitions, closed -/
example : (GC.run true (joinTwo ++ [.work false, .work false, .work false, .work false, .restart, .work false, .work false, .work false,
      .work false, .work false, .join true 0, .join true 0, .join true 3, .work false, .work false, .work false, .work false, .work false,
      .close] ++ List.replicate 8 (.closeStep true)) {}).map
    (fun s => (s.counter, s.started, s.stopped, s.member, s.close)) = some (0, [0, 1, 2, 3, 4], [0, 1, 2, 3, 4], false, .done) := by
  decide +kernel

/-! ## C100: nothing runs after `Close` -/

/-- every consumer started was stopped, or is in the list -/
def GC.Tracked (s : GC) (l : List Nat) : Prop := ∀ i ∈ s.started, i ∈ s.stopped ∨ i ∈ l

/-- where the running consumers are listed, by the place of the goroutines -/
structure TrackInv (s : GC) : Prop where
  atRest : s.work = .idle → (s.close = .none ∨ s.close = .sending ∨ s.close = .locking) → s.Tracked s.consumers
  entered : s.work = .entered → s.Tracked s.consumers
  stopping : ∀ rest, s.work = .stopping rest → s.Tracked rest
  empty : s.work = .stopped ∨ s.work = .selecting → s.Tracked []
  starting : ∀ rest, s.work = .starting rest → s.Tracked s.consumers ∧ ∀ i ∈ rest, i ∈ s.consumers
  closing : ∀ rest, s.close = .stopping rest → s.Tracked rest
  closed : s.close = .waiting ∨ s.close = .leaving ∨ s.close = .done → s.Tracked []

theorem TrackInv.init : TrackInv {} := by
  constructor <;> simp [GC.Tracked]

theorem GC.Tracked.stopOne {s : GC} {i : Nat} {rest : List Nat} (h : s.Tracked (i :: rest)) :
    ∀ j ∈ s.started, (j ∈ s.stopped ∨ j = i) ∨ j ∈ rest := by
  intro j hj
  rcases h j hj with h | h
  · exact .inl (.inl h)
  · rcases List.mem_cons.1 h with h | h
    · exact .inl (.inr h)
    · exact .inr h

theorem TrackInv.step {a : GroupAct} {s s' : GC} (hi : GroupInv s) (ht : TrackInv s) (h : s.step true a = some s') : TrackInv s' := by
  obtain ⟨h1, h2, h3, h4, -, h6, -, -, h9, -, -, h12⟩ := hi
  obtain ⟨t1, t2, t3, t4, t5, t6, t7⟩ := ht
  unfold GC.step at h
  rw [h1] at h
  simp only [Bool.false_eq_true, if_false] at h
  cases a with
  | consume =>
    simp only at h
    split at h
    · rename_i hc
      obtain ⟨c1, c2, c3⟩ := hc
      have c3 := c3 trivial
      have := t1 c1 (.inl c3)
      cases h
      constructor <;> simp_all [GC.Tracked]
    · cases h
  | restart =>
    simp only at h
    split at h
    · rename_i hc
      obtain ⟨c1, c2, -, c3⟩ := hc
      have c3 := c3 trivial
      have := t1 c1 (.inl c3)
      cases h
      constructor <;> simp_all [GC.Tracked]
    · cases h
  | work token =>
    simp only [GC.workStep] at h
    have hcl : s.work ≠ .idle → s.close = .none := by
      intro hw
      by_cases hc : s.close = .none
      · exact hc
      · exact absurd (h2 hc).1 hw
    split at h
    · cases h
    · rename_i i rest hw
      cases h
      have hc := hcl (by simp [hw])
      have := (t3 _ hw).stopOne
      clear t1 t2 t3 t4 t5 t6 t7
      constructor <;> simp_all [GC.stopOne, GC.Tracked]
    · rename_i hw
      cases h
      have hc := hcl (by simp [hw])
      have := t3 _ hw
      constructor <;> simp_all [GC.Tracked]
    · rename_i hw
      have hc := hcl (by simp [hw])
      have := t4 (.inl hw)
      split at h
      · cases h
        constructor <;> simp_all [GC.Tracked]
      · cases h
    · rename_i hw
      have hc := hcl (by simp [hw])
      have := t2 hw
      split at h
      · rename_i h0
        cases h
        have hnil : s.consumers = [] := by
          have := h6 hw
          rw [h0] at this
          exact List.length_eq_zero_iff.1 this.symm
        clear h6
        constructor <;> simp_all [GC.Tracked]
      · cases h
    · rename_i hw
      have hc := hcl (by simp [hw])
      have ht := h3 hc
      rw [ht] at h
      simp only [Bool.false_eq_true, false_and, if_false] at h
      split at h
      · cases h
        have := t4 (.inr hw)
        constructor <;> simp_all [GC.Tracked]
      · cases h
    · rename_i i rest hw
      cases h
      have hc := hcl (by simp [hw])
      obtain ⟨u1, u2⟩ := t5 _ hw
      constructor
      · simp
      · simp
      · simp
      · simp
      · intro rest' he
        cases he
        refine ⟨fun j hj => ?_, fun j hj => u2 j (List.mem_cons_of_mem _ hj)⟩
        rcases List.mem_append.1 hj with hj | hj
        · exact u1 j hj
        · rw [List.mem_singleton.1 hj]; exact .inr (u2 i (List.mem_cons_self ..))
      · simp [hc]
      · simp [hc]
    · rename_i hw
      cases h
      have hc := hcl (by simp [hw])
      have := t5 _ hw
      constructor <;> simp_all [GC.Tracked]
  | join ok n =>
    simp only [GC.joinStep] at h
    have hw : s.join ≠ .none → s.work = .selecting := by
      intro hj
      by_cases hw : s.work = .selecting
      · exact hw
      · exact absurd (h4 hw) hj
    have hcl : s.join ≠ .none → s.close = .none := by
      intro hj
      by_cases hc : s.close = .none
      · exact hc
      · exact absurd (h2 hc).2 hj
    split at h
    · cases h
    · cases h
    · rename_i hj
      have hw := hw (by simp [hj])
      have hc := hcl (by simp [hj])
      repeat' split at h
      all_goals
        cases h
        constructor <;> simp_all [GC.Tracked]
    · rename_i hj
      have hw := hw (by simp [hj])
      have hc := hcl (by simp [hj])
      cases h
      constructor <;> simp_all [GC.Tracked]
    · rename_i hj
      have hw := hw (by simp [hj])
      have hc := hcl (by simp [hj])
      split at h
      · cases h
        constructor <;> simp_all [GC.Tracked]
      · cases h
        constructor <;> simp_all [GC.Tracked]
  | close =>
    simp only at h
    split at h
    · rename_i hc
      obtain ⟨c1, c2⟩ := hc
      have c2 := c2 trivial
      simp only [GC.busy, Bool.or_eq_false_iff, decide_eq_false_iff_not, ne_eq, Decidable.not_not] at c2
      cases h
      rcases c1 with c1 | c1
      · constructor <;> simp_all [GC.Tracked]
      · have := h12 (.inr (.inr c1))
        have := t7 (.inr (.inr c1))
        constructor <;> simp_all [GC.Tracked]
    · cases h
  | closeStep ok =>
    simp only [GC.closeNext] at h
    split at h
    · cases h
    · cases h
    · rename_i hc
      have := h2 (by simp [hc])
      split at h
      · cases h
      · cases h
        constructor <;> simp_all [GC.Tracked]
    · rename_i hc
      have := h2 (by simp [hc])
      split at h
      · cases h
      · cases h
        constructor <;> simp_all [GC.Tracked]
    · rename_i i rest hc
      have hw := h2 (by simp [hc])
      cases h
      have := (t6 _ hc).stopOne
      clear t1 t2 t3 t4 t5 t6 t7
      constructor <;> simp_all [GC.stopOne, GC.Tracked]
    · rename_i hc
      have hw := h2 (by simp [hc])
      have := t6 _ hc
      cases h
      constructor <;> simp_all [GC.Tracked]
    · rename_i hc
      have hw := h2 (by simp [hc])
      split at h
      · cases h
        constructor <;> simp_all [GC.Tracked]
      · cases h
    · rename_i hc
      have hw := h2 (by simp [hc])
      have := t7 (.inr (.inl hc))
      repeat' split at h
      all_goals
        cases h
        constructor <;> simp_all [GC.Tracked]

/-- C100: under the same condition, when `Close` is done every partition consumer ever started has been stopped.
Missing for the full statement: `Close` during (re)joining (`C100_violated`). -/
theorem C100_all_stopped_partial (as : List GroupAct) (s : GC) (h : GC.run true as {} = some s) (hd : s.close = .done) :
    ∀ i ∈ s.started, i ∈ s.stopped := by
  have := (GC.run_induction (P := fun t => GroupInv t ∧ TrackInv t)
    (fun _ _ _ hs hi => ⟨hi.1.step hs, hi.2.step hi.1 hs⟩) as {} s h ⟨.init, .init⟩).2.closed (.inr (.inr hd))
  intro i hi
  rcases this i hi with h | h
  · exact h
  · cases h

/-- C100 does not hold if `Close` is called while the consumer is joining: the assignment arrives after `Close` is done,
and the goroutine that waits for both takes it. -/
theorem C100_violated : (GC.run false ([.consume, .work false, .join true 0, .join true 0, .close] ++ List.replicate 5 (.closeStep true) ++
      [.join true 2, .work false, .work false, .work false]) {}).map
    (fun s => (s.close, s.started, s.stopped)) = some (.done, [0, 1], []) := by decide +kernel

/-! ## C123: one assignment at a time -/

/-- each consumer is started at most once, by the place of the goroutines -/
structure OnceInv (s : GC) : Prop where
  started : ∀ i ∈ s.started, i < s.made
  nodup : s.started.Nodup
  held : ∀ i ∈ s.consumers, i < s.made
  selecting : s.work = .selecting → s.join ≠ .ready → s.consumers = []
  fresh : s.work = .selecting → s.consumers.Nodup ∧ ∀ i ∈ s.consumers, i ∉ s.started
  starting : ∀ rest, s.work = .starting rest → rest.Nodup ∧ (∀ i ∈ rest, i ∉ s.started ∧ i < s.made)

theorem OnceInv.step {a : GroupAct} {s s' : GC} (hg : GroupInv s) (hi : OnceInv s) (h : s.step true a = some s') : OnceInv s' := by
  obtain ⟨h1, h2, h3, h4, h5, h6⟩ := hi
  unfold GC.step at h
  rw [hg.sane] at h
  simp only [Bool.false_eq_true, if_false] at h
  cases a with
  | consume =>
    simp only at h
    split at h
    · cases h; exact ⟨h1, h2, h3, fun h => (nomatch h), fun h => (nomatch h), fun _ h => (nomatch h)⟩
    · cases h
  | restart =>
    simp only at h
    split at h
    · cases h; exact ⟨h1, h2, h3, fun h => (nomatch h), fun h => (nomatch h), fun _ h => (nomatch h)⟩
    · cases h
  | work token =>
    simp only [GC.workStep] at h
    split at h
    · cases h
    · cases h; exact ⟨h1, h2, h3, fun h => (nomatch h), fun h => (nomatch h), fun _ h => (nomatch h)⟩
    · cases h; exact ⟨h1, h2, by simp, fun h => (nomatch h), fun h => (nomatch h), fun _ h => (nomatch h)⟩
    · split at h
      · cases h; exact ⟨h1, h2, h3, fun h => (nomatch h), fun h => (nomatch h), fun _ h => (nomatch h)⟩
      · cases h
    · rename_i hw
      split at h
      · rename_i h0
        cases h
        have hc : s.consumers = [] := by
          have := hg.entered hw
          rw [h0] at this
          exact List.length_eq_zero_iff.1 this.symm
        exact ⟨h1, h2, h3, fun _ _ => hc, fun _ => by simp [hc], fun _ h => (nomatch h)⟩
      · cases h
    · rename_i hw
      split at h
      · cases h; exact ⟨h1, h2, h3, fun h => (nomatch h), fun h => (nomatch h), fun _ h => (nomatch h)⟩
      · split at h
        · rename_i hj
          cases h
          obtain ⟨f1, f2⟩ := h5 hw
          refine ⟨h1, h2, h3, fun h => (nomatch h), fun h => (nomatch h), fun rest h => ?_⟩
          cases h
          exact ⟨f1, fun i hi => ⟨f2 i hi, h3 i hi⟩⟩
        · cases h
    · rename_i i rest hw
      cases h
      obtain ⟨f1, f2⟩ := h6 _ hw
      rw [List.nodup_cons] at f1
      have fi := f2 i (by simp)
      refine ⟨?_, ?_, h3, fun h => (nomatch h), fun h => (nomatch h), fun rest' h => ?_⟩
      · intro j hj
        rcases List.mem_append.1 hj with hj | hj
        · exact h1 j hj
        · rw [List.mem_singleton.1 hj]; exact fi.2
      · rw [List.nodup_append]
        refine ⟨h2, by simp, fun a ha b hb hab => ?_⟩
        rw [List.mem_singleton.1 hb] at hab
        exact fi.1 (hab ▸ ha)
      · cases h
        refine ⟨f1.2, fun j hj => ⟨fun hm => ?_, (f2 j (by simp [hj])).2⟩⟩
        rcases List.mem_append.1 hm with hm | hm
        · exact (f2 j (by simp [hj])).1 hm
        · rw [List.mem_singleton.1 hm] at hj
          exact f1.1 hj
    · cases h; exact ⟨h1, h2, h3, fun h => (nomatch h), fun h => (nomatch h), fun _ h => (nomatch h)⟩
  | join ok n =>
    simp only [GC.joinStep] at h
    have hw : s.join ≠ .none → s.work = .selecting := by
      intro hj
      by_cases hw : s.work = .selecting
      · exact hw
      · exact absurd (hg.joining hw) hj
    have hns : ∀ rest, s.join ≠ .none → s.work ≠ .starting rest := fun rest hj h => by rw [hw hj] at h; cases h
    split at h
    · cases h
    · cases h
    · rename_i hj
      have hc := h4 (hw (by simp [hj])) (by simp [hj])
      repeat' split at h
      all_goals
        cases h
        exact ⟨h1, h2, h3, fun _ _ => hc, fun _ => by simp [hc], fun rest h => absurd h (hns rest (by simp [hj]))⟩
    · rename_i hj
      have hc := h4 (hw (by simp [hj])) (by simp [hj])
      cases h
      exact ⟨h1, h2, h3, fun _ _ => hc, fun _ => by simp [hc], fun rest h => absurd h (hns rest (by simp [hj]))⟩
    · rename_i hj
      have hc := h4 (hw (by simp [hj])) (by simp [hj])
      split at h
      · cases h
        refine ⟨fun i hi => ?_, h2, fun i hi => ?_, fun _ h => absurd rfl h, fun _ => ⟨?_, fun i hi hm => ?_⟩,
          fun rest h => absurd h (hns rest (by simp [hj]))⟩
        · have := h1 i hi
          simp only
          omega
        · simp only [List.mem_map, List.mem_range] at hi ⊢
          omega
        · refine List.nodup_range.map ?_
          intro x y hxy
          simpa using hxy
        · have := h1 i hm
          simp only [List.mem_map, List.mem_range] at hi
          omega
      · cases h
        exact ⟨h1, h2, h3, fun _ _ => hc, fun _ => by simp [hc], fun rest h => absurd h (hns rest (by simp [hj]))⟩
  | close =>
    simp only at h
    split at h
    · cases h; exact ⟨h1, h2, h3, h4, h5, h6⟩
    · cases h
  | closeStep ok =>
    have hq : s.close ≠ .none → s.work = .idle := fun hc => (hg.idle hc).1
    simp only [GC.closeNext] at h
    split at h
    · cases h
    · cases h
    · split at h
      · cases h
      · cases h; exact ⟨h1, h2, h3, h4, h5, h6⟩
    · split at h
      · cases h
      · cases h; exact ⟨h1, h2, h3, h4, h5, h6⟩
    · cases h; exact ⟨h1, h2, h3, h4, h5, h6⟩
    · rename_i hc
      have hw := hq (by simp [hc])
      cases h
      exact ⟨h1, h2, by simp, fun _ _ => rfl, fun _ => by simp, fun rest h => h6 rest h⟩
    · split at h
      · cases h; exact ⟨h1, h2, h3, h4, h5, h6⟩
      · cases h
    · repeat' split at h
      all_goals
        cases h
        exact ⟨h1, h2, h3, h4, h5, h6⟩

/-- C123: if `Close` is not called while the consumer is joining or being restarted, and nothing is started after it, then no partition
consumer is started twice, however often the group is rebalanced.
Missing for the full statement: `Close` during (re)joining, where it fails (`C123_violated_twice`). -/
theorem C123_started_once_partial (as : List GroupAct) (s : GC) (h : GC.run true as {} = some s) : s.started.Nodup :=
  (GC.run_induction (P := fun s => GroupInv s ∧ OnceInv s) (fun _ _ _ hs hi => ⟨hi.1.step hs, hi.2.step hi.1 hs⟩) as {} s h
    ⟨.init, by constructor <;> simp⟩).2.nodup

/-- C123 does not hold without the condition: `Consume` is called again while two partition consumers run, and waits for
them; `Close` stops them; before it has emptied the list, `Consume` goes on, the joining goroutine finds the consumer
closed and joins nothing, and the two stopped partition consumers are started a second time. -/
theorem C123_violated_twice :
    (GC.run false (joinTwo ++ [.work false, .work false, .work false, .work false, .consume, .close, .closeStep true,
      .closeStep true, .closeStep true, .closeStep true, .work false, .join true 0, .work false, .work false, .work false]) {}).map
    (fun s => (s.started, s.stopped, s.crashed)) = some ([0, 1, 0, 1], [0, 1], false) := by
  decide +kernel

/-- `Close` while joining; the assignment of two partitions arrives and is not started; `Consume` again, joined with two more; `Close`
stops the first two, which were never started, and the counter is 0 while the other two run; then a restart -/
def closeAndConsume : List GroupAct :=
  [.consume, .work false, .join true 0, .join true 0, .close, .closeStep true, .work true, .join true 2, .closeStep true,
   .consume, .work false, .join true 0, .join true 0, .join true 2, .work false, .work false, .closeStep true, .work false,
   .closeStep true, .closeStep true, .work false, .closeStep true, .restart, .work false, .work false, .work false]

/-- C123 does not hold without the condition: the consumer asks to join again while both partition consumers it started
still run. -/
theorem C123_violated_running :
    ((GC.run false closeAndConsume {}).map fun s => (s.started, s.stopped, s.join, s.crashed)) = some ([2, 3], [0, 1], .top, false) ∧
    ((GC.run false (closeAndConsume ++ [.join true 0]) {}).map fun s => (s.started, s.stopped, s.member)) = some ([2, 3], [0, 1], true) := by
  decide +kernel

/-- C123: under the same condition, the consumer asks to join, or for its partitions, only when every partition consumer it ever started
has been stopped; so those that run come from one assignment.
Missing for the full statement: `Close` during (re)joining, where it fails (`C123_violated_running`). -/
theorem C123_joins_stopped_partial (as : List GroupAct) (s s' : GC) (h : GC.run true as {} = some s) (ok : Bool) (n : Nat)
    (hj : s.step true (.join ok n) = some s') : (∀ i ∈ s.started, i ∈ s.stopped) ∧ s'.started = s.started ∧ s.stopped = s'.stopped := by
  obtain ⟨hg, ht⟩ := GC.run_induction (P := fun t => GroupInv t ∧ TrackInv t)
    (fun _ _ _ hs hi => ⟨hi.1.step hs, hi.2.step hi.1 hs⟩) as {} s h ⟨.init, .init⟩
  have hjn : s.join ≠ .none := by
    intro hn
    simp [GC.step, GC.joinStep, hg.sane, hn] at hj
  have hw : s.work = .selecting := by
    by_cases hw : s.work = .selecting
    · exact hw
    · exact absurd (hg.joining hw) hjn
  refine ⟨fun i hi => ?_, ?_⟩
  · rcases ht.empty (.inr hw) i hi with h | h
    · exact h
    · cases h
  · unfold GC.step GC.joinStep at hj
    rw [hg.sane] at hj
    simp only [Bool.false_eq_true, if_false] at hj
    repeat' split at hj
    all_goals first | cases hj; done | (cases hj; exact ⟨rfl, rfl⟩)

/-- the second join, after a restart -/
example : ((GC.run true (joinTwo ++ [.work false, .work false, .work false, .work false, .restart, .work false, .work false, .work false,
      .work false, .work false, .join true 0, .join true 0]) {}).bind (GC.step true (.join true 3))).map
    (fun s => (s.started, s.stopped, s.consumers)) = some ([0, 1], [0, 1], [2, 3, 4]) := by
  decide +kernel

/-! ## C101: `Close` leaves the group -/

/-- a member knows that it is one, when nothing is going on -/
structure MemberInv (s : GC) : Prop where
  atRest : s.work = .idle → s.member = true → s.joined = true
  starting : ∀ rest, s.work = .starting rest → s.joined = true

theorem MemberInv.step {a : GroupAct} {s s' : GC} (hi : GroupInv s) (ht : MemberInv s) (h : s.step true a = some s') : MemberInv s' := by
  obtain ⟨h1, h2, h3, h4, -, -, -, -, -, -, -, -⟩ := hi
  obtain ⟨t1, t2⟩ := ht
  unfold GC.step at h
  rw [h1] at h
  simp only [Bool.false_eq_true, if_false] at h
  cases a with
  | work token =>
    simp only [GC.workStep] at h
    have hcl : s.work ≠ .idle → s.close = .none := by
      intro hw
      by_cases hc : s.close = .none
      · exact hc
      · exact absurd (h2 hc).1 hw
    split at h
    case h_6 hw =>
      have hc := hcl (by simp [hw])
      have ht := h3 hc
      rw [ht] at h
      simp only [Bool.false_eq_true, false_and, if_false] at h
      split at h
      · cases h
        constructor <;> simp_all
      · cases h
    all_goals
      repeat' split at h
      all_goals first | (cases h; done) | (cases h; constructor <;> simp_all [GC.stopOne])
  | join ok n =>
    have hw : s.join ≠ .none → s.work = .selecting := by
      intro hj
      by_cases hw : s.work = .selecting
      · exact hw
      · exact absurd (h4 hw) hj
    simp only [GC.joinStep] at h
    repeat' split at h
    all_goals first | (cases h; done) | (cases h; constructor <;> simp_all)
  | closeStep ok =>
    simp only [GC.closeNext] at h
    repeat' split at h
    all_goals first | (cases h; done) | (cases h; constructor <;> simp_all [GC.stopOne])
  | _ =>
    simp only at h
    repeat' split at h
    all_goals first | (cases h; done) | (cases h; constructor <;> simp_all)

/-- C101: under the same condition, `Close` leaves the group: if its leave request succeeds, the coordinator does not
regard the consumer as a member any more, and without a request it did not before; and the consumer does not think that
it has joined any more, so it sends no heartbeats (group_consumer.go:311).
Missing for the full statement: `Close` during (re)joining (`C101_violated`). -/
theorem C101_left_partial (as : List GroupAct) (s s' : GC) (h : GC.run true as {} = some s) (hl : s.close = .leaving)
    (hs : s.step true (.closeStep true) = some s') : s'.close = .done ∧ s'.member = false ∧ s'.joined = false := by
  obtain ⟨h1, h2⟩ := GC.run_induction (P := fun t => GroupInv t ∧ MemberInv t)
    (fun _ _ _ hs hi => ⟨hi.1.step hs, hi.2.step hi.1 hs⟩) as {} s h ⟨.init, by constructor <;> simp⟩
  have hm := h2.atRest (h1.idle (by simp [hl])).1
  simp only [GC.step, h1.sane, GC.closeNext, hl] at hs
  cases hj : s.joined with
  | true =>
    simp only [hj] at hs
    cases hs
    exact ⟨rfl, rfl, rfl⟩
  | false =>
    simp only [hj] at hs
    cases hs
    refine ⟨rfl, ?_, rfl⟩
    cases hmem : s.member with
    | false => rfl
    | true => rw [hm hmem] at hj; cases hj

/-- C101 does not hold if `Close` is called while the consumer is joining: the coordinator has it as a member, and no
leave request is sent. -/
theorem C101_violated : (GC.run false ([.consume, .work false, .join true 0, .close] ++ List.replicate 5 (.closeStep true)) {}).map
    (fun s => (s.close, s.member)) = some (.done, true) := by decide +kernel

/-! ## C102: `Close` comes to its end -/

theorem close_stopping : ∀ (rest : List Nat) (s : GC), s.crashed = false → s.close = .stopping rest → s.counter = rest.length →
    ∃ s', s.run true (List.replicate (rest.length + 3) (.closeStep true)) = some s' ∧ s'.close = .done
  | [], s, h0, hc, hn => by
    simp only [List.length_nil] at hn
    cases hj : s.joined <;>
    simp [List.replicate, GC.run, GC.step, GC.closeNext, h0, hc, hn, hj]
  | i :: rest, s, h0, hc, hn => by
    simp only [List.length_cons] at hn
    have hstep : s.step true (.closeStep true) = some { s.stopOne i with close := .stopping rest } := by
      simp [GC.step, GC.closeNext, h0, hc]
    rw [show (i :: rest).length + 3 = (rest.length + 3) + 1 by simp, List.replicate_succ, GC.run, hstep]
    exact close_stopping rest _ (by simp [GC.stopOne, h0]; omega) rfl (by simp [GC.stopOne]; omega)

/-- C102: under the same condition, the first call of `Close` comes to its end, by its own steps alone.
Missing for the full statement: a second call (`C102_violated`). -/
theorem C102_first_close_partial (as : List GroupAct) (s : GC) (h : GC.run true as {} = some s) (hc : s.close = .none)
    (hb : s.work = .idle) :
    ∃ n s', s.run true (.close :: List.replicate n (.closeStep true)) = some s' ∧ s'.close = .done := by
  have hi := GroupInv.run h
  have ht := hi.token hc
  obtain ⟨s', h1, h2⟩ := close_stopping s.consumers { s with closed := true, token := true, close := .stopping s.consumers }
    hi.sane rfl (hi.atRest hb (.inl hc))
  refine ⟨s.consumers.length + 3 + 1 + 1, s', ?_, h2⟩
  rw [List.replicate_succ, List.replicate_succ]
  have s1 : s.step true .close = some { s with closed := true, close := .sending } := by
    simp [GC.step, GC.busy, hi.sane, hc, hb]
  have s2 : GC.step true (.closeStep true) { s with closed := true, close := .sending } =
      some { s with closed := true, token := true, close := .locking } := by
    simp [GC.step, hi.sane, GC.closeNext, ht]
  have s3 : GC.step true (.closeStep true) { s with closed := true, token := true, close := .locking } =
      some { s with closed := true, token := true, close := .stopping s.consumers } := by
    simp [GC.step, hi.sane, GC.closeNext, hb, WorkAt.holds]
  rw [GC.run, s1]
  simp only [Option.bind_some]
  rw [GC.run, s2]
  simp only [Option.bind_some]
  rw [GC.run, s3]
  exact h1

/-- C102 does not hold for a second call: it waits for a place in `closeChan` which nobody will make. -/
theorem C102_violated : ∃ s, GC.run false (joinTwo ++ List.replicate 4 (.work false) ++ [.close] ++ List.replicate 7 (.closeStep true) ++ [.close]) {} = some s ∧
    s.close = .sending ∧ ∀ a, a ≠ .consume → a ≠ .restart → s.step false a = none := by
  refine ⟨_, rfl, rfl, fun a h1 h2 => ?_⟩
  cases a with
  | consume => exact absurd rfl h1
  | restart => exact absurd rfl h2
  | work t => rfl
  | join ok n => rfl
  | close => rfl
  | closeStep ok => rfl

/-! ## C45 -/

/-- Same topics with the same partition ids, in the same order. -/
def SameListing (a b : List TopicMetadata) : Prop :=
  a.map (fun t => (t.name, t.partitions.map PartitionMetadataInfo.partitionID)) =
    b.map (fun t => (t.name, t.partitions.map PartitionMetadataInfo.partitionID))

/-- all that is compared -/
def TopicMetadata.compared (t : TopicMetadata) : Bytes × Int16 × List (Int32 × Int16 × Int32) :=
  (t.name, t.errorCode, t.partitions.map fun p => (p.partitionID, p.errorCode, p.leader))

theorem samePartitions_iff : ∀ (a b : List PartitionMetadataInfo), a.length = b.length → (samePartitions a b = true ↔
    a.map (fun p => (p.partitionID, p.errorCode, p.leader)) = b.map (fun p => (p.partitionID, p.errorCode, p.leader)))
  | [], [], _ => by simp [samePartitions]
  | x :: xs, y :: ys, h => by
    have ih := samePartitions_iff xs ys (by simpa using h)
    simp only [samePartitions, List.map_cons, List.cons.injEq, Prod.mk.injEq]
    by_cases h1 : x.partitionID = y.partitionID
    · by_cases h2 : x.errorCode = y.errorCode
      · by_cases h3 : x.leader = y.leader
        · simp [h1, h2, h3, ih]
        · simp [h1, h2, h3]
      · simp [h1, h2]
    · simp [h1]
  | [], _ :: _, h => by simp at h
  | _ :: _, [], h => by simp at h

theorem sameTopics_iff : ∀ (a b : List TopicMetadata), a.length = b.length → (sameTopics a b = true ↔
    a.map TopicMetadata.compared = b.map TopicMetadata.compared)
  | [], [], _ => by simp [sameTopics]
  | x :: xs, y :: ys, h => by
    have ih := sameTopics_iff xs ys (by simpa using h)
    simp only [sameTopics, List.map_cons, List.cons.injEq]
    simp only [TopicMetadata.compared, Prod.mk.injEq]
    by_cases h1 : x.name = y.name
    · by_cases h2 : x.errorCode = y.errorCode
      · by_cases h3 : x.partitions.length = y.partitions.length
        · have hp := samePartitions_iff x.partitions y.partitions h3
          by_cases h4 : samePartitions x.partitions y.partitions = true
          · simp only [h1, h2, h3, h4, ne_eq, not_true_eq_false, or_self, if_false, if_true, true_and, hp.1 h4]
            exact ih
          · have h4' : samePartitions x.partitions y.partitions = false := by simpa using h4
            simp only [h1, h2, h3, h4', ne_eq, not_true_eq_false, or_self, if_false, true_and, Bool.false_eq_true, false_iff, not_and]
            intro hc
            exact absurd (hp.2 hc) h4
        · simp only [h1, h2, h3, ne_eq, not_true_eq_false, not_false_eq_true, or_self, if_false, if_true, true_and, Bool.false_eq_true,
            false_iff, not_and]
          intro hc
          have := congrArg List.length hc
          simp only [List.length_map] at this
          exact absurd this h3
      · simp [h1, h2]
    · simp [h1]
  | [], _ :: _, h => by simp at h
  | _ :: _, [], h => by simp at h

/-- C45, what is compared: no change is reported exactly if names, error codes, partition ids, partition error codes
and leaders agree, in order.
Missing: that only the partitions matter (`C45_violated_leader`, `C45_violated_order`). -/
theorem C45_exact_partial (a b : List TopicMetadata) : ifTopicMetadatasSame (some a) (some b) = true ↔
    a.map TopicMetadata.compared = b.map TopicMetadata.compared := by
  unfold ifTopicMetadatasSame
  simp only
  by_cases h : a.length = b.length
  · rw [if_neg (by simp [h])]
    exact sameTopics_iff a b h
  · rw [if_pos h]
    simp only [Bool.false_eq_true, false_iff]
    intro hc
    have := congrArg List.length hc
    simp only [List.length_map] at this
    exact h this

/-- C45: if no change is reported, the same topics with the same partitions are listed: a change of the partitions is
never missed.
Missing for the full statement: changes are reported too when only the leaders or the order changed
(`C45_violated_leader`, `C45_violated_order`). -/
theorem C45_never_missed_partial (a b : List TopicMetadata) (h : ifTopicMetadatasSame (some a) (some b) = true) : SameListing a b := by
  have := (C45_exact_partial a b).1 h
  have := congrArg (List.map fun x : Bytes × Int16 × List (Int32 × Int16 × Int32) => (x.1, x.2.2.map Prod.fst)) this
  simpa [SameListing, TopicMetadata.compared, Function.comp_def] using this

/-- a topic with one partition -/
def oneTopic (name : UInt8) (leader : Int32) : TopicMetadata := ⟨0, [name], false, [⟨0, 0, leader, 0, [], [], []⟩]⟩

example : ifTopicMetadatasSame (some [oneTopic 1 1, oneTopic 2 1]) (some [oneTopic 1 1, oneTopic 2 1]) = true := by decide

/-- C45 does not hold: a change of leaders makes the whole group rebalance. -/
theorem C45_violated_leader : SameListing [oneTopic 1 1] [oneTopic 1 2] ∧
    ifTopicMetadatasSame (some [oneTopic 1 1]) (some [oneTopic 1 2]) = false := by
  unfold SameListing
  decide

/-- C45 does not hold: so does a change of the order in which the broker lists the topics. -/
theorem C45_violated_order : ifTopicMetadatasSame (some [oneTopic 1 1, oneTopic 2 1]) (some [oneTopic 2 1, oneTopic 1 1]) = false := by
  decide

/-! ## C103: the topics the leader asks for -/

theorem addTopics (ts acc : List Bytes) (h : acc.Nodup) :
    (ts.foldl (fun acc t => if acc.contains t then acc else t :: acc) acc).Nodup ∧
      ∀ t, t ∈ ts.foldl (fun acc t => if acc.contains t then acc else t :: acc) acc ↔ t ∈ acc ∨ t ∈ ts := by
  induction ts generalizing acc with
  | nil => simp [h]
  | cons x ts ih =>
    simp only [List.foldl_cons]
    by_cases hx : acc.contains x = true
    · rw [if_pos hx]
      obtain ⟨h1, h2⟩ := ih acc h
      refine ⟨h1, fun t => ?_⟩
      rw [h2]
      have hx : x ∈ acc := by simpa using hx
      constructor
      · rintro (h | h)
        · exact .inl h
        · exact .inr (List.mem_cons_of_mem _ h)
      · rintro (h | h)
        · exact .inl h
        · rcases List.mem_cons.1 h with h | h
          · exact .inl (h ▸ hx)
          · exact .inr h
    · rw [if_neg hx]
      have hx : x ∉ acc := by simpa using hx
      obtain ⟨h1, h2⟩ := ih (x :: acc) (List.nodup_cons.2 ⟨hx, h⟩)
      refine ⟨h1, fun t => ?_⟩
      rw [h2]
      simp only [List.mem_cons]
      constructor
      · rintro ((h | h) | h)
        · exact .inr (.inl h)
        · exact .inl h
        · exact .inr (.inr h)
      · rintro (h | h | h)
        · exact .inl (.inr h)
        · exact .inl (.inl h)
        · exact .inr h

/-- C103: the leader asks for each topic some member subscribes to, once, and for no other. -/
theorem C103_subscribed_topics (members : List Member) (sub : Member → ProtocolMetadata)
    (hsub : ∀ m ∈ members, newProtocolMetadata m.memberMetadata = .ok (sub m)) :
    ∃ ts, subscribedTopics members = .ok ts ∧ ts.Nodup ∧ ∀ t, t ∈ ts ↔ ∃ m ∈ members, t ∈ (sub m).subscription := by
  induction members with
  | nil => exact ⟨[], rfl, List.nodup_nil, by simp⟩
  | cons m ms ih =>
    obtain ⟨ts, h1, h2, h3⟩ := ih (fun x hx => hsub x (List.mem_cons_of_mem _ hx))
    obtain ⟨g1, g2⟩ := addTopics (sub m).subscription.reverse ts h2
    refine ⟨_, by simp only [subscribedTopics, hsub m (List.mem_cons_self ..), h1]; rfl, g1, fun t => ?_⟩
    rw [g2, h3]
    simp only [List.mem_reverse, List.mem_cons, exists_eq_or_imp]
    exact or_comm

example : subscribedTopics [⟨[1], [0, 0, 0, 0, 0, 1, 0, 1, 116, 0, 0, 0, 0]⟩, ⟨[2], [0, 0, 0, 0, 0, 2, 0, 1, 117, 0, 1, 116, 0, 0, 0, 0]⟩] =
    .ok [[117], [116]] := by decide +kernel

/-! ## C104, C105: the last commit

`Stop` (simple_consumer.go:277-283) cancels the context, sets `stop` and waits for the consume loop, but not for the
auto-commit goroutine, which commits once more when it sees the cancelled context (lines 387-389). -/

/-- deliver message 5, then stop -/
def deliverThenStop : List ConsumerAct := [.fetched [at' 5]] ++ take' ++ [.receive, .cancel, .stop, .noticed, .fetchFailed]

/-- C104 does not hold: the group is left (which empties the member id) before the auto-commit goroutine comes to its
last commit; it then sends nothing, and message 5 is delivered again to the next owner of the partition. -/
theorem C104_violated : seenIn { mode := .member, autoOnly := true } { offset := 5, fetchMaxBytes := 100, memberID := [109], generationID := 3 }
    (deliverThenStop ++ [.membership [] 3, .commit, .commitStep 0 true, .commitStep 0 true, .commitStep 0 true]) =
    some [("fetch", 5, 100), ("put", 5, 0), ("got", 5, 0), ("member", 0, 3)] := by decide +kernel

/-- C104: when it comes to it in time, the commit covers all that was delivered. -/
example : seenIn { mode := .member, autoOnly := true } { offset := 5, fetchMaxBytes := 100, memberID := [109], generationID := 3 }
    (deliverThenStop ++ commitCall true ++ [.membership [] 3]) =
    some [("fetch", 5, 100), ("put", 5, 0), ("got", 5, 0), ("commit", 6, 3), ("member", 0, 3)] := by decide +kernel

/-- C104, the part that holds: a call of `CommitOffset` that is not disturbed sends the position of the stopped
consumer, which is after everything delivered, unless just that position was committed before.
Missing for the full statement: that the call is made before the group is left (`C104_violated`). -/
theorem C104_last_commit_partial (s : SC) (hc : s.commits = []) (hm : s.memberID ≠ []) (hd : s.offset ≠ s.offsetCommited)
    (h0 : 0 ≤ s.offset) : SC.run { mode := .member, autoOnly := true } (commitCall true ++ [.commitStep 0 true]) s =
      some { s with offsetCommited := s.offset, log := s.log ++ [.commit s.memberID s.generationID s.offset true] } := by
  have h0' : ¬ s.offset < 0 := by
    intro hn
    rw [Int64.lt_iff_toInt_lt] at hn
    rw [Int64.le_iff_toInt_le] at h0
    omega
  obtain ⟨stop, cancelled, offset, oc, fb, fm, loop, commits, queue, mem, gen, log⟩ := s
  simp only at hc hm hd h0'
  subst hc
  simp [commitCall, SC.run, SC.step, commitNext, setCommit, hm, hd, h0']

/-- C105 does not hold: a partition is taken away in generation 4; the stopped consumer of generation 3 commits its
position as a member of generation 4, when the partition may belong to another member, which is further on. -/
theorem C105_violated : seenIn { mode := .member, autoOnly := true } { offset := 5, fetchMaxBytes := 100, memberID := [109], generationID := 3 }
    (deliverThenStop ++ [.membership [109] 4] ++ commitCall true) =
    some [("fetch", 5, 100), ("put", 5, 0), ("got", 5, 0), ("member", 0, 4), ("commit", 6, 4)] := by decide +kernel

end Healer
