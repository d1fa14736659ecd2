import Verif.Props.Pending

/-! C148: every pattern with two plus signs in a row crashes get-pending. -/

namespace Healer

open Brokers

variable {W : Type}

/-- Behind dots, stars and inert characters the pattern is read on, not behind a backslash. -/
theorem reParse_behind (g : Bytes) (hg : ∀ c ∈ g, Inert c) (rest : Bytes) (acc : List ReTok) (q : ReAt) (hq : q ≠ .escape) :
    ∃ acc' q', q' ≠ .escape ∧ (q' = .start → g = [] ∧ q = .start) ∧ reParse acc q (globPattern g ++ rest) = reParse acc' q' rest := by
  induction g generalizing acc q with
  | nil => exact ⟨acc, q, hq, fun h => ⟨rfl, h⟩, by simp [globPattern]⟩
  | cons c g ih =>
    have hc := hg c (by simp)
    have ih := ih fun x hx => hg x (List.mem_cons_of_mem _ hx)
    rw [globPattern_cons]
    by_cases h46 : c = 46
    · subst h46
      rw [if_pos rfl]
      simp only [List.cons_append, List.nil_append, reParse]
      rw [if_neg hq]
      simpa using ih _ .item (by decide)
    · by_cases h42 : c = 42
      · subst h42
        simpa [reParse, hq, reRepeat] using ih _ .repeated (by decide)
      · rw [if_neg h46, if_neg h42]
        simp only [Inert, List.mem_cons, List.not_mem_nil, or_false, not_or] at hc
        have hs : reSpecial c = false := by
          simp only [reSpecial, Bool.or_eq_false_iff, decide_eq_false_iff_not]
          grind
        have hlt : ¬ c ≥ 128 := by
          have := hc.1
          rw [UInt8.lt_iff_toNat_lt] at this
          intro h
          rw [ge_iff_le, UInt8.le_iff_toNat_le] at h
          omega
        simp only [List.cons_append, List.nil_append, reParse]
        rw [if_neg hq, if_neg (by grind), if_neg h46, if_neg (by grind), hs]
        simpa [hlt] using ih _ .item (by decide)

/-- C148 fails for every pattern with a star and two plus signs in a row behind dots, stars and characters that mean nothing to the regexp library (at least one),
whatever follows them: the tool crashes, whatever groups there are. -/
theorem C148_violated_every_plusplus (net : Net W) (lib : RegexpLib) (hl : Regexps lib) (b : Brokers W) (front back : Bytes) (hne : front ≠ []) (hf : ∀ c ∈ front, Inert c)
    (hs : 42 ∈ front ++ 43 :: 43 :: back) : (getGroups net lib (front ++ 43 :: 43 :: back) b).1 = .panic := by
  have hb : reParse [] .start (globPattern (front ++ 43 :: 43 :: back)) = .bad := by
    have e : globPattern (front ++ 43 :: 43 :: back) = globPattern front ++ (43 :: 43 :: globPattern back) := by
      have : ∀ f : Bytes, globPattern (f ++ 43 :: 43 :: back) = globPattern f ++ (43 :: 43 :: globPattern back) := by
        intro f
        induction f with
        | nil => simp [globPattern_cons, show globPattern [] = [] from rfl]
        | cons c f ih => rw [List.cons_append, globPattern_cons, globPattern_cons, ih, List.append_assoc]
      exact this front
    obtain ⟨acc, q, hq, hst, h⟩ := reParse_behind front hf (43 :: 43 :: globPattern back) [] .start (by decide)
    rw [e, h]
    cases q <;> simp_all [reParse]
  unfold getGroups
  rw [if_neg (by simp), if_neg (by simp at hs ⊢; grind), hl.bad _ hb]

/-- "a.b++*" -/
example (net : Net W) (b : Brokers W) : (getGroups net modelLib ([97, 46, 98] ++ 43 :: 43 :: [42]) b).1 = .panic := rfl

end Healer
