import Verif.Props.Maps
import Verif.Props.Settings

/-!
# Further statements for all inputs

* C160: look-ups go on, and each fault for all keys and goroutines.
* C157: which texts are taken for numbers and switches.
-/

namespace Healer

/-! ## C160 -/

namespace RaceMap

/-- The lock is held by a goroutine in the middle of its call; nobody waits inside a call without it. -/
def Busy (s : RaceMap) : Prop := (∀ j, s.holder = some j → (∃ k, s.pos j = .missing k) ∨ ∃ k, s.pos j = .assigning k) ∧
  ∀ j, s.pos j = .ready ∨ s.pos j = .done ∨ s.holder = some j

theorem Busy.step {c : Nat} {i : Nat} {s s' : RaceMap} (h : s.Busy) (hs : s.step true (.get c) i = some s') (hf : s'.fatal = false) : s'.Busy := by
  unfold RaceMap.step at hs
  by_cases h0 : s.fatal = true
  · rw [if_pos h0] at hs; cases hs
  rw [if_neg h0] at hs
  cases hp : s.pos i with
  | ready =>
    rw [hp] at hs
    simp only [begin] at hs
    cases hh : s.holder with
    | some x => rw [hh] at hs; simp at hs
    | none =>
      rw [hh] at hs
      simp only [Option.isSome_none, Bool.and_false, Bool.false_eq_true, if_false, if_true, Option.some.injEq] at hs
      subst hs
      unfold access at hf ⊢
      by_cases hw : s.writing = true
      · simp [hw] at hf
      · simp only [hw, Bool.false_eq_true, if_false] at hf ⊢
        by_cases hk : c ∈ s.keys
        · simp only [hk, if_true, release, goto]
          refine ⟨fun j hj => (by cases hj), fun j => ?_⟩
          dsimp only
          by_cases hj : j = i
          · rw [if_pos hj]; exact .inr (.inl rfl)
          · rw [if_neg hj]
            rcases h.2 j with h1 | h1 | h1
            · exact .inl h1
            · exact .inr (.inl h1)
            · rw [hh] at h1; cases h1
        · simp only [hk, if_false, goto]
          refine ⟨fun j hj => ?_, fun j => ?_⟩
          · dsimp only at hj ⊢
            cases hj
            exact .inl ⟨c, if_pos rfl⟩
          · dsimp only
            by_cases hj : j = i
            · subst hj; exact .inr (.inr rfl)
            · rw [if_neg hj]
              rcases h.2 j with h1 | h1 | h1
              · exact .inl h1
              · exact .inr (.inl h1)
              · rw [hh] at h1; cases h1
  | missing k =>
    rw [hp] at hs
    simp only [Option.some.injEq] at hs
    subst hs
    have hi : s.holder = some i := by
      rcases h.2 i with h1 | h1 | h1
      · rw [hp] at h1; cases h1
      · rw [hp] at h1; cases h1
      · exact h1
    unfold access at hf ⊢
    by_cases hw : s.writing = true
    · simp [hw] at hf
    · simp only [hw, Bool.false_eq_true, if_false, goto] at hf ⊢
      refine ⟨fun j hj => ?_, fun j => ?_⟩
      · dsimp only at hj ⊢
        rw [hi] at hj
        cases hj
        exact .inr ⟨k, if_pos rfl⟩
      · dsimp only
        by_cases hj : j = i
        · subst hj; exact .inr (.inr hi)
        · rw [if_neg hj]; exact h.2 j
  | assigning k =>
    rw [hp] at hs
    have hi : s.holder = some i := by
      rcases h.2 i with h1 | h1 | h1
      · rw [hp] at h1; cases h1
      · rw [hp] at h1; cases h1
      · exact h1
    by_cases hw : s.writing = true
    · simp only [hw, if_true, Option.some.injEq] at hs
      subst hs
      simp only [release, goto, if_true]
      refine ⟨fun j hj => (by cases hj), fun j => ?_⟩
      dsimp only
      by_cases hj : j = i
      · rw [if_pos hj]; exact .inr (.inl rfl)
      · rw [if_neg hj]
        rcases h.2 j with h1 | h1 | h1
        · exact .inl h1
        · exact .inr (.inl h1)
        · rw [hi] at h1; cases h1; exact absurd rfl hj
    · simp only [hw, Bool.false_eq_true, if_false, Option.some.injEq] at hs
      subst hs
      cases hf
  | ranging n =>
    rcases h.2 i with h1 | h1 | h1
    · rw [hp] at h1; cases h1
    · rw [hp] at h1; cases h1
    · rcases h.1 i h1 with ⟨k, h2⟩ | ⟨k, h2⟩ <;> rw [hp] at h2 <;> cases h2
  | done => rw [hp] at hs; cases hs

theorem Busy.run {nodes : Nat → Nat} (is : List Nat) {s s' : RaceMap} (h : s.Busy) (hg : s.Guarded)
    (hs : RaceMap.run brokersLocks (fun i => .get (nodes i)) is s = some s') : s'.Busy ∧ s'.Guarded := by
  induction is generalizing s with
  | nil => cases hs; exact ⟨h, hg⟩
  | cons i is ih =>
    simp only [RaceMap.run] at hs
    cases h1 : s.step (brokersLocks (.get (nodes i))) (.get (nodes i)) i with
    | none => rw [h1] at hs; cases hs
    | some s1 =>
      rw [h1] at hs
      have h2 := hg.step _ i h1
      exact ih (h.step h1 h2.1) h2 hs

end RaceMap

/-- **C160**, look-ups go on: however the steps of goroutines calling `GetBroker` have interleaved, as long as one of them is not done, one of them can make a step: the lock is always given back.
Missing for the full statement: `Close` at the same time (`C160_violated_every_close`). -/
theorem C160_progress_partial (keys : List Nat) (nodes : Nat → Nat) (is : List Nat) (s : RaceMap)
    (h : RaceMap.run brokersLocks (fun i => .get (nodes i)) is { keys } = some s) (i : Nat) (hi : s.pos i ≠ .done) :
    ∃ j s', s.step (brokersLocks (.get (nodes j))) (.get (nodes j)) j = some s' ∧ s.pos j ≠ .done := by
  have hg : RaceMap.Guarded { keys } := ⟨rfl, fun _ => .inl rfl, fun h => (by cases h), fun _ _ h => (by cases h), fun _ => rfl⟩
  obtain ⟨h1, h2⟩ := RaceMap.Busy.run is ⟨fun _ h => (by cases h), fun _ => .inl rfl⟩ hg h
  have hf : s.fatal = false := h2.1
  have go : ∀ j, s.holder = some j → ∃ s', s.step true (.get (nodes j)) j = some s' ∧ s.pos j ≠ .done := by
    intro j hj
    unfold RaceMap.step
    rcases h1.1 j hj with ⟨k, hk⟩ | ⟨k, hk⟩
    · rw [hf, hk]; exact ⟨_, rfl, by simp⟩
    · rw [hf, hk]
      by_cases hw : s.writing = true
      · simp only [hw, if_true]; exact ⟨_, rfl, by simp⟩
      · simp only [hw, Bool.false_eq_true, if_false]; exact ⟨_, rfl, by simp⟩
  cases hh : s.holder with
  | some j => obtain ⟨s', h3⟩ := go j hh; exact ⟨j, s', h3⟩
  | none =>
    rcases h1.2 i with h3 | h3 | h3
    · refine ⟨i, ?_⟩
      unfold RaceMap.step
      rw [hf, h3]
      simp only [brokersLocks, RaceMap.begin, hh, Option.isSome_none, Bool.and_false, Bool.false_eq_true, if_false]
      exact ⟨_, rfl, by simp⟩
    · exact absurd h3 hi
    · rw [hh] at h3; cases h3

example : ∃ j s', RaceMap.step (brokersLocks (.get 1)) (.get 1) j { keys := [7] } = some s' := ⟨0, _, rfl⟩

/-- **C160, negation, for all goroutines and keys.**  Two goroutines add the first messages for two partitions: if both find their partition missing before one of them has written, the process is ended. -/
theorem C160_violated_every_keyed (keys : List Nat) (calls : Nat → MapCall) (i j k l : Nat) (hij : i ≠ j) (hi : calls i = .get k) (hj : calls j = .get l)
    (hk : k ∉ keys) (hl : l ∉ keys) : (RaceMap.run producerLocks calls [i, j, i, j] { keys }).map RaceMap.fatal = some true := by
  simp [RaceMap.run, RaceMap.step, RaceMap.begin, RaceMap.access, RaceMap.goto, RaceMap.release, producerLocks, hi, hj, hk, hl, hij, Ne.symm hij]

/-- **C160, negation, for all goroutines and keys.**  A goroutine looks a partition up that is in the map, or closes the producer, while another one is writing to the map for another partition: the process is ended. -/
theorem C160_violated_every_read (keys : List Nat) (calls : Nat → MapCall) (i j k : Nat) (hij : i ≠ j) (hi : calls i = .get k) (hk : k ∉ keys) :
    (RaceMap.run producerLocks calls [i, i, j] { keys }).map RaceMap.fatal = some true := by
  cases hj : calls j <;>
  simp [RaceMap.run, RaceMap.step, RaceMap.begin, RaceMap.access, RaceMap.goto, RaceMap.release, producerLocks, hi, hj, hk, hij, Ne.symm hij]

/-- **C160, negation, for all goroutines and keys.**  A client is closed while another goroutine looks up a broker for the first time: if `Close` is in its loop when the look-up writes, the process is ended, the lock of
`GetBroker` notwithstanding; so it is when `Close` begins then. -/
theorem C160_violated_every_close (keys : List Nat) (calls : Nat → MapCall) (i j k : Nat) (hij : i ≠ j) (hi : calls i = .range) (hj : calls j = .get k) (hk : k ∉ keys) :
    (keys ≠ [] → (RaceMap.run brokersLocks calls [i, j, j, i] { keys }).map RaceMap.fatal = some true) ∧
    (RaceMap.run brokersLocks calls [j, j, i] { keys }).map RaceMap.fatal = some true := by
  constructor
  · intro hne
    obtain ⟨x, xs, rfl⟩ := List.exists_cons_of_ne_nil hne
    simp only [List.mem_cons, not_or] at hk
    simp [RaceMap.run, RaceMap.step, RaceMap.begin, RaceMap.access, RaceMap.goto, RaceMap.release, brokersLocks, hi, hj, hk, hij, Ne.symm hij]
  · simp [RaceMap.run, RaceMap.step, RaceMap.begin, RaceMap.access, RaceMap.goto, RaceMap.release, brokersLocks, hi, hj, hk, hij, Ne.symm hij]

example : (RaceMap.run producerLocks closeAndGet [1, 2, 1, 2] {}).map RaceMap.fatal = some true :=
  C160_violated_every_keyed [] closeAndGet 1 2 1 2 (by decide) rfl rfl (by decide) (by decide)

/-! ## C157: underscores and switches -/

/-- a decimal digit, or with `hex` a hexadecimal one -/
def DigitChar (hex : Bool) (c : Char) : Prop :=
  (48 ≤ c.toNat ∧ c.toNat ≤ 57) ∨ (hex = true ∧ ((97 ≤ c.toNat ∧ c.toNat ≤ 102) ∨ (65 ≤ c.toNat ∧ c.toNat ≤ 70)))

/-- Digits, with single underscores between digits. -/
inductive DigitGroups (hex : Bool) : List Char → Prop where
  | last (c : Char) : DigitChar hex c → DigitGroups hex [c]
  | digit (c : Char) (s : List Char) : DigitChar hex c → DigitGroups hex s → DigitGroups hex (c :: s)
  | joint (c : Char) (s : List Char) : DigitChar hex c → DigitGroups hex s → DigitGroups hex (c :: '_' :: s)

theorem DigitChar.plain {hex : Bool} {c : Char} (h : DigitChar hex c) : c ≠ '_' := by
  rintro rfl
  revert h
  unfold DigitChar
  cases hex <;> decide

theorem DigitGroups.not_underscore {hex : Bool} {s : List Char} : ¬ DigitGroups hex ('_' :: s) := by
  intro h
  cases h with
  | last _ h => exact h.plain rfl
  | digit _ _ h => exact h.plain rfl
  | joint _ _ h => exact h.plain rfl

theorem underscoreLoop_iff (hex : Bool) (s : List Char) (hs : ∀ c ∈ s, DigitChar hex c ∨ c = '_') :
    (underscoreLoop hex s .start = true ↔ s = [] ∨ DigitGroups hex s) ∧
    (underscoreLoop hex s .underscore = true ↔ DigitGroups hex s) ∧
    (underscoreLoop hex s .digit = true ↔ s = [] ∨ DigitGroups hex s ∨ ∃ t, s = '_' :: t ∧ DigitGroups hex t) := by
  induction s with
  | nil => exact ⟨by simp [underscoreLoop], ⟨by simp [underscoreLoop], fun h => nomatch h⟩, by simp [underscoreLoop]⟩
  | cons c s ih =>
    obtain ⟨i1, i2, i3⟩ := ih fun x hx => hs x (.tail _ hx)
    rcases hs c (.head _) with hc | rfl
    · have e : ∀ i, underscoreLoop hex (c :: s) i = underscoreLoop hex s .digit := by
        intro i
        rw [underscoreLoop]
        exact if_pos hc
      have key : (s = [] ∨ DigitGroups hex s ∨ ∃ t, s = '_' :: t ∧ DigitGroups hex t) ↔ DigitGroups hex (c :: s) := by
        constructor
        · rintro (rfl | h | ⟨t, rfl, h⟩)
          · exact .last c hc
          · exact .digit c s hc h
          · exact .joint c t hc h
        · intro h
          cases h with
          | last => exact .inl rfl
          | digit _ _ _ h => exact .inr (.inl h)
          | joint _ t _ h => exact .inr (.inr ⟨t, rfl, h⟩)
      refine ⟨?_, ?_, ?_⟩
      · rw [e, i3, key]; simp
      · rw [e, i3, key]
      · rw [e, i3, key]
        constructor
        · exact fun h => .inr (.inl h)
        · rintro (h | h | ⟨t, h, -⟩)
          · cases h
          · exact h
          · exact absurd (List.cons.inj h).1 hc.plain
    · have hn : ¬ DigitChar hex '_' := fun h => h.plain rfl
      have e : ∀ i, underscoreLoop hex ('_' :: s) i = if i = .digit then underscoreLoop hex s .underscore else false := by
        intro i
        rw [underscoreLoop]
        exact (if_neg hn).trans (if_pos rfl)
      refine ⟨?_, ?_, ?_⟩
      · rw [e]; simp [DigitGroups.not_underscore]
      · rw [e]; simp [DigitGroups.not_underscore]
      · rw [e, if_pos rfl, i2]
        simp [DigitGroups.not_underscore]

theorem digitsIn_filter (base : Nat) (s : List Char) (k : Nat) : digitsIn base s k = digitsIn base (s.filter (· ≠ '_')) k := by
  induction s generalizing k with
  | nil => rfl
  | cons c s ih =>
    by_cases hc : c = '_'
    · subst hc
      rw [digitsIn, if_pos rfl, ih]
      rfl
    · rw [List.filter_cons, if_pos (by simpa using hc), digitsIn, digitsIn, if_neg hc, if_neg hc]
      cases charDigit c with
      | none => rfl
      | some d => simp only [ih]

theorem DigitGroups.chars {hex : Bool} {s : List Char} (h : DigitGroups hex s) : s ≠ [] ∧ ∀ c ∈ s, DigitChar hex c ∨ c = '_' := by
  induction h with
  | last c hc => exact ⟨by simp, by simp [hc]⟩
  | digit c s hc _ ih =>
    refine ⟨by simp, fun x hx => ?_⟩
    rcases List.mem_cons.1 hx with rfl | hx
    · exact .inl hc
    · exact ih.2 x hx
  | joint c s hc _ ih =>
    refine ⟨by simp, fun x hx => ?_⟩
    rcases List.mem_cons.1 hx with rfl | hx
    · exact .inl hc
    · rcases List.mem_cons.1 hx with rfl | hx
      · exact .inr rfl
      · exact ih.2 x hx

theorem DigitGroups.filtered {hex : Bool} {s : List Char} (h : DigitGroups hex s) : ∃ c t, s.filter (· ≠ '_') = c :: t ∧ DigitChar hex c := by
  cases h with
  | last c hc => exact ⟨c, _, List.filter_cons_of_pos (by simpa using hc.plain), hc⟩
  | digit c s hc => exact ⟨c, _, List.filter_cons_of_pos (by simpa using hc.plain), hc⟩
  | joint c s hc => exact ⟨c, _, List.filter_cons_of_pos (by simpa using hc.plain), hc⟩

theorem filter_plain (s : List Char) : (s.filter (· ≠ '_')).contains '_' = false := by
  simp

/-- a decimal digit is no letter for a base -/
theorem DigitChar.no_base {c : Char} (h : DigitChar false c) : c.toLower ≠ 'b' ∧ c.toLower ≠ 'o' ∧ c.toLower ≠ 'x' := by
  have hr : 48 ≤ c.toNat ∧ c.toNat ≤ 57 := by
    rcases h with h | ⟨h, -⟩
    · exact h
    · cases h
  have hl : c.toLower = c := by
    unfold Char.toLower
    rw [dif_neg]
    rintro ⟨h1, -⟩
    have h1 : 65 ≤ c.toNat := h1
    omega
  rw [hl]
  refine ⟨?_, ?_, ?_⟩ <;> (rintro rfl; revert hr; decide)

theorem prefixed_zero {p : Char} {t : List Char} (h : p.toLower ≠ 'b' ∧ p.toLower ≠ 'o' ∧ p.toLower ≠ 'x') : prefixed ('0' :: p :: t) = digitsIn 8 (p :: t) 0 := by
  cases t with
  | nil => rfl
  | cons d t =>
    simp only [prefixed]
    rw [if_neg h.1, if_neg h.2.1, if_neg h.2.2]

theorem prefixed_ten {c : Char} {t : List Char} (h : c ≠ '0') : prefixed (c :: t) = digitsIn 10 (c :: t) 0 := by
  unfold prefixed
  split
  · rename_i h1; cases h1
  · rename_i h1; exact absurd (List.cons.inj h1).1 h
  · rename_i h1; exact absurd (List.cons.inj h1).1 h
  · rfl

theorem underscoreOK_plain {s : List Char} (hs : ∀ c ∈ s, DigitChar false c ∨ c = '_') : underscoreOK s = underscoreLoop false s .start := by
  unfold underscoreOK
  split
  · rename_i p r
    have hp : p.toLower ≠ 'b' ∧ p.toLower ≠ 'o' ∧ p.toLower ≠ 'x' := by
      rcases hs p (by simp) with h | rfl
      · exact h.no_base
      · decide
    rw [if_neg (by simp [hp.1, hp.2.1]), if_neg hp.2.2]
  · rfl

/-- **C157, underscores.** In a number of decimal digits underscores mean nothing where each is between two digits, and are refused everywhere else. -/
theorem C157_underscores (s : List Char) (hs : ∀ c ∈ s, DigitChar false c ∨ c = '_') :
    (DigitGroups false s → parseUnsigned s = parseUnsigned (s.filter (· ≠ '_'))) ∧ (¬ DigitGroups false s → '_' ∈ s → parseUnsigned s = none) := by
  have hu := underscoreOK_plain hs
  have hl := (underscoreLoop_iff false s hs).1
  constructor
  · intro hg
    have h1 : underscoreOK s = true := by rw [hu]; exact hl.2 (.inr hg)
    unfold parseUnsigned
    rw [h1, filter_plain]
    simp only [Bool.not_true, Bool.and_false, Bool.false_and, Bool.false_eq_true, if_false]
    obtain ⟨c, t, hc, ht⟩ : ∃ c t, s = c :: t ∧ DigitChar false c := by
      cases hg with
      | last c hc => exact ⟨c, _, rfl, hc⟩
      | digit c s hc => exact ⟨c, _, rfl, hc⟩
      | joint c s hc => exact ⟨c, _, rfl, hc⟩
    subst hc
    have hf : (c :: t).filter (· ≠ '_') = c :: t.filter (· ≠ '_') := List.filter_cons_of_pos (by simpa using ht.plain)
    rw [hf]
    by_cases h0 : c = '0'
    · subst h0
      have ez : ∀ u : List Char, (∀ x ∈ u, DigitChar false x ∨ x = '_') → prefixed ('0' :: u) = digitsIn 8 u 0 := by
        intro u hx
        cases u with
        | nil => rfl
        | cons p u =>
          refine prefixed_zero ?_
          rcases hx p (by simp) with h | rfl
          · exact h.no_base
          · decide
      rw [ez t fun x hx => hs x (.tail _ hx), ez _ fun x hx => hs x (.tail _ (List.mem_filter.1 hx).1), digitsIn_filter]
    · rw [prefixed_ten h0, prefixed_ten h0, digitsIn_filter, hf]
  · intro hg hm
    have h1 : underscoreOK s = false := by
      rw [hu]
      cases he : underscoreLoop false s .start with
      | false => rfl
      | true =>
        rcases hl.1 he with rfl | h
        · cases hm
        · exact absurd h hg
    unfold parseUnsigned
    rw [h1, List.contains_iff_mem.2 hm]
    rfl

/-- **C157, underscores after a prefix.** After 0b, 0o or 0x underscores mean nothing between digits and after the prefix. -/
theorem C157_prefix (p : Char) (s : List Char) (hex : Bool) (hp : (p.toLower = 'b' ∨ p.toLower = 'o') ∧ hex = false ∨ p.toLower = 'x' ∧ hex = true)
    (hg : DigitGroups hex s) :
    parseUnsigned ('0' :: p :: s) = parseUnsigned ('0' :: p :: s.filter (· ≠ '_')) ∧
    parseUnsigned ('0' :: p :: '_' :: s) = parseUnsigned ('0' :: p :: s.filter (· ≠ '_')) := by
  have hp_ : p ≠ '_' := by
    rintro rfl
    revert hp
    cases hex <;> decide
  have ok : ∀ t, underscoreLoop hex t .digit = true → underscoreOK ('0' :: p :: t) = true := by
    intro t ht
    unfold underscoreOK
    simp only
    rcases hp with ⟨h, rfl⟩ | ⟨h, rfl⟩
    · rw [if_pos h]; exact ht
    · rw [if_neg (by rw [h]; decide), if_pos h]; exact ht
  have pre : ∃ base, ∀ x t, prefixed ('0' :: p :: x :: t) = digitsIn base (x :: t) 0 := by
    rcases hp with ⟨h | h, -⟩ | ⟨h, -⟩
    · exact ⟨2, fun x t => by simp only [prefixed]; rw [if_pos h]⟩
    · exact ⟨8, fun x t => by simp only [prefixed]; rw [if_neg (by rw [h]; decide), if_pos h]⟩
    · exact ⟨16, fun x t => by simp only [prefixed]; rw [if_neg (by rw [h]; decide), if_neg (by rw [h]; decide), if_pos h]⟩
  obtain ⟨base, pre⟩ := pre
  obtain ⟨hne, hch⟩ := hg.chars
  obtain ⟨y, ys, hf, -⟩ := hg.filtered
  have right : parseUnsigned ('0' :: p :: s.filter (· ≠ '_')) = digitsIn base s 0 := by
    have hc : ('0' :: p :: s.filter (· ≠ '_')).contains '_' = false := by
      simp [Ne.symm hp_]
    unfold parseUnsigned
    rw [hc]
    simp only [Bool.false_and, Bool.false_eq_true, if_false]
    rw [hf, pre, ← hf, ← digitsIn_filter]
  have left : ∀ x t, underscoreLoop hex (x :: t) .digit = true → parseUnsigned ('0' :: p :: x :: t) = digitsIn base (x :: t) 0 := by
    intro x t ht
    unfold parseUnsigned
    rw [ok _ ht]
    simp only [Bool.not_true, Bool.and_false, Bool.false_eq_true, if_false]
    exact pre x t
  have h3 := (underscoreLoop_iff hex s hch).2.2
  have h4 := (underscoreLoop_iff hex ('_' :: s) (by simpa using hch)).2.2
  rw [right]
  constructor
  · obtain ⟨x, t, rfl⟩ := List.exists_cons_of_ne_nil hne
    exact left x t (h3.2 (.inr (.inl hg)))
  · rw [left _ _ (h4.2 (.inr (.inr ⟨s, rfl, hg⟩))), digitsIn, if_pos rfl]

example : parseUnsigned "1_000".toList = some 1000 ∧ parseUnsigned "1__000".toList = none ∧ parseUnsigned "0x_ff".toList = some 255 ∧ parseUnsigned "0_7".toList = some 7 := by
  decide +kernel

example : DigitGroups false ['1', '_', '0', '0', '0'] :=
  .joint _ _ (by unfold DigitChar; decide) (.digit _ _ (by unfold DigitChar; decide) (.digit _ _ (by unfold DigitChar; decide) (.last _ (by unfold DigitChar; decide))))

/-- the texts that switch something on, and off -/
def onTexts : List String := ["1", "t", "T", "true", "TRUE", "True"]

/-- the texts that switch something off; the empty one is a courtesy of mapstructure -/
def offTexts : List String := ["0", "f", "F", "false", "FALSE", "False", ""]

theorem decodeBool_text {old r : Bool} {s : String} (h : decodeBool old (.text s) = .ok r) : s ∈ (if r then onTexts else offTexts) := by
  simp only [decodeBool] at h
  unfold parseBool at h
  by_cases h1 : s = "1" ∨ s = "t" ∨ s = "T" ∨ s = "true" ∨ s = "TRUE" ∨ s = "True"
  · rw [if_pos h1] at h
    cases h
    simpa [onTexts] using h1
  · rw [if_neg h1] at h
    by_cases h2 : s = "0" ∨ s = "f" ∨ s = "F" ∨ s = "false" ∨ s = "FALSE" ∨ s = "False"
    · rw [if_pos h2] at h
      cases h
      simp only [Bool.false_eq_true, if_false, offTexts, List.mem_cons, List.not_mem_nil, or_false]
      exact h2.imp id fun h => h.imp id fun h => h.imp id fun h => h.imp id fun h => h.imp id Or.inl
    · rw [if_neg h2] at h
      simp only at h
      split at h
      · cases h
        rename_i h3
        simp [h3, offTexts]
      · cases h

theorem decodeBool_on {old : Bool} {s : String} (h : s ∈ onTexts) : decodeBool old (.text s) = .ok true := by
  simp only [onTexts, List.mem_cons, List.not_mem_nil, or_false] at h
  simp only [decodeBool, parseBool, if_pos h]

theorem decodeBool_off {old : Bool} {s : String} (h : s ∈ offTexts) : decodeBool old (.text s) = .ok false := by
  simp only [offTexts, List.mem_cons, List.not_mem_nil, or_false] at h
  rcases h with rfl | rfl | rfl | rfl | rfl | rfl | rfl <;> rfl

/-- **C157, switches.** A text for a switch is taken for on or off if it is one of those `strconv.ParseBool` knows, or empty; otherwise the map is refused. -/
theorem C157_switch (m : Settings) (key s : String) (old : Bool) (hg : Gives m key (.text s)) :
    (boolField key m old = .ok true ↔ s ∈ onTexts) ∧ (boolField key m old = .ok false ↔ s ∈ offTexts) ∧
    (s ∉ onTexts → s ∉ offTexts → boolField key m old = .error errDecode) := by
  unfold boolField
  rw [findSetting_gives hg]
  refine ⟨⟨fun h => ?_, decodeBool_on⟩, ⟨fun h => ?_, decodeBool_off⟩, fun h1 h2 => ?_⟩
  · simpa using decodeBool_text h
  · simpa using decodeBool_text h
  · cases h : decodeBool old (.text s) with
    | ok r => cases r <;> have := decodeBool_text h <;> simp_all
    | error e =>
      have h' := h
      simp only [decodeBool] at h'
      split at h'
      · cases h'
      · split at h' <;> cases h'
        exact h

example : boolField "auto.commit" [("auto.commit", .text "yes")] true = .error errDecode :=
  (C157_switch [("auto.commit", .text "yes")] "auto.commit" "yes" true ⟨by simp, by simp⟩).2.2 (by decide) (by decide)

/-- **C157, switches, other values.** A number for a switch is taken for off if it is zero and for on otherwise, a boolean as it is. -/
theorem C157_switch_values (m : Settings) (key : String) (old : Bool) :
    (∀ n, Gives m key (.int n) → boolField key m old = .ok (decide (n ≠ 0))) ∧ (∀ b, Gives m key (.bool b) → boolField key m old = .ok b) := by
  refine ⟨fun n hg => ?_, fun b hg => ?_⟩ <;> unfold boolField <;> rw [findSetting_gives hg] <;> rfl

example : boolField "auto.commit" [("auto.commit", .int 1)] false = .ok true :=
  (C157_switch_values [("auto.commit", .int 1)] "auto.commit" false).1 1 ⟨by simp, by simp⟩

end Healer
