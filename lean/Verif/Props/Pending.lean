import Verif.Model.Pending
import Verif.Props.Tools2
import Verif.Props.Group
import Verif.Spec.Response

/-!
# C148: which groups and topics get-pending shows
-/

namespace Healer

open Brokers

variable {W : Type}

/-! ## What is required -/

/-- a name fits a pattern in which `*` stands for any text and everything else for itself -/
inductive Glob : Bytes → Bytes → Prop where
  | nil : Glob [] []
  | same (c : UInt8) {p s : Bytes} : c ≠ 42 → Glob p s → Glob (c :: p) (c :: s)
  | none {p s : Bytes} : Glob p s → Glob (42 :: p) s
  | more (c : UInt8) {p s : Bytes} : Glob (42 :: p) s → Glob (42 :: p) (c :: s)

/-- a character of a pattern without a meaning to the regexp library other than that of `.` and `*` -/
def Inert (c : UInt8) : Prop := c < 128 ∧ c ∉ [43, 63, 92, 40, 41, 91, 93, 123, 125, 94, 36, 124]

/-- a name of ASCII characters on one line -/
def PlainName (s : Bytes) : Prop := ∀ c ∈ s, c < 128 ∧ c ≠ 10

/-- the regexp library does what regexp/syntax says of the patterns modelled: it matches plain names from `^` to `$`, and refuses malformed patterns -/
structure Regexps (lib : RegexpLib) : Prop where
  good : ∀ p ts, reParse [] .start p = .ok ts → ∃ m, lib (94 :: p ++ [36]) = some m ∧ ∀ s, PlainName s → m s = reMatches ts s
  bad : ∀ p, reParse [] .start p = .bad → lib (94 :: p ++ [36]) = none

/-! ## Patterns -/

/-- what a character of the pattern becomes -/
def globTok (c : UInt8) : ReTok := if c = 42 then .star .any else .once (.one c)

theorem globPattern_cons (c : UInt8) (g : Bytes) :
    globPattern (c :: g) = (if c = 46 then [92, 46] else if c = 42 then [46, 42] else [c]) ++ globPattern g := by
  unfold globPattern
  simp only [List.flatMap_cons, List.flatMap_append]
  congr 1
  split
  · rfl
  · simp

theorem reParse_glob (g : Bytes) (hg : ∀ c ∈ g, Inert c) (acc : List ReTok) (q : ReAt) (hq : q ≠ .escape) :
    reParse acc q (globPattern g) = .ok (acc.reverse ++ g.map globTok) := by
  induction g generalizing acc q with
  | nil => simp [globPattern, reParse, hq]
  | cons c g ih =>
    have hc := hg c (by simp)
    have ih := ih fun x hx => hg x (List.mem_cons_of_mem _ hx)
    rw [globPattern_cons]
    by_cases h46 : c = 46
    · subst h46
      rw [if_pos rfl]
      simp only [List.cons_append, List.nil_append, reParse]
      rw [if_neg hq]
      simp [ih, globTok]
    · by_cases h42 : c = 42
      · subst h42
        simp [reParse, hq, ih, globTok, reRepeat]
      · rw [if_neg h46, if_neg h42]
        simp only [Inert, List.mem_cons, List.not_mem_nil, or_false, not_or] at hc
        have hs : reSpecial c = false := by
          simp only [reSpecial, Bool.or_eq_false_iff, decide_eq_false_iff_not]
          grind
        have hlt : ¬ c ≥ 128 := by
          have := hc.1
          rw [UInt8.lt_iff_toNat_lt] at this
          intro h
          rw [ge_iff_le, UInt8.le_iff_toNat_le] at h
          omega
        simp only [List.cons_append, List.nil_append, reParse]
        rw [if_neg hq, if_neg (by grind), if_neg h46, if_neg (by grind), hs]
        simp [hlt, ih, globTok, h42]

theorem starFits_iff (rest : Bytes → Bool) (s : Bytes) (hs : PlainName s) :
    starFits .any rest s = true ↔ ∃ pre post, s = pre ++ post ∧ rest post = true := by
  induction s with
  | nil =>
    simp only [starFits]
    constructor
    · intro h
      exact ⟨[], [], rfl, h⟩
    · rintro ⟨pre, post, h1, h2⟩
      have := List.append_eq_nil_iff.1 h1.symm
      rw [this.2] at h2
      exact h2
  | cons x s ih =>
    have hx : ReItem.any.fits x = true := by simp [ReItem.fits, (hs x (by simp)).2]
    simp only [starFits, hx, Bool.true_and, Bool.or_eq_true, ih fun c hc => hs c (List.mem_cons_of_mem _ hc)]
    constructor
    · rintro (h | ⟨pre, post, h1, h2⟩)
      · exact ⟨[], _, rfl, h⟩
      · exact ⟨x :: pre, post, by rw [h1]; rfl, h2⟩
    · rintro ⟨pre, post, h1, h2⟩
      cases pre with
      | nil =>
        left
        rw [List.nil_append] at h1
        rw [h1]
        exact h2
      | cons y pre =>
        right
        simp only [List.cons_append, List.cons.injEq] at h1
        exact ⟨pre, post, h1.2, h2⟩

theorem Glob.skip {p : Bytes} (pre : Bytes) {s : Bytes} (h : Glob p s) : Glob (42 :: p) (pre ++ s) := by
  induction pre with
  | nil => exact .none h
  | cons c pre ih => exact .more c ih

theorem Glob.star {p s : Bytes} (h : Glob (42 :: p) s) : ∃ pre post, s = pre ++ post ∧ Glob p post := by
  generalize hq : (42 : UInt8) :: p = q at h
  induction h with
  | nil => cases hq
  | same c hc _ _ =>
    simp only [List.cons.injEq] at hq
    exact absurd hq.1.symm hc
  | none h _ =>
    simp only [List.cons.injEq, true_and] at hq
    subst hq
    exact ⟨[], _, rfl, h⟩
  | more c h ih =>
    obtain ⟨pre, post, h1, h2⟩ := ih hq
    exact ⟨c :: pre, post, by rw [h1]; rfl, h2⟩

theorem reMatches_glob (g s : Bytes) (hs : PlainName s) : reMatches (g.map globTok) s = true ↔ Glob g s := by
  induction g generalizing s with
  | nil =>
    cases s with
    | nil => exact ⟨fun _ => .nil, fun _ => rfl⟩
    | cons c s => exact ⟨fun h => (by cases h), fun h => (by cases h)⟩
  | cons c g ih =>
    by_cases hc : c = 42
    · subst hc
      simp only [List.map_cons, globTok, if_pos]
      rw [reMatches, starFits_iff _ _ hs]
      constructor
      · rintro ⟨pre, post, rfl, h⟩
        exact ((ih post fun x hx => hs x (List.mem_append.2 (.inr hx))).1 h).skip pre
      · intro h
        obtain ⟨pre, post, rfl, h'⟩ := h.star
        exact ⟨pre, post, rfl, (ih post fun x hx => hs x (List.mem_append.2 (.inr hx))).2 h'⟩
    · simp only [List.map_cons, globTok, if_neg hc]
      cases s with
      | nil =>
        constructor
        · intro h
          cases h
        · intro h
          cases h
          exact absurd rfl hc
      | cons x s =>
        rw [reMatches]
        simp only [ReItem.fits, Bool.and_eq_true, decide_eq_true_eq, ih s fun y hy => hs y (List.mem_cons_of_mem _ hy)]
        constructor
        · rintro ⟨rfl, h⟩
          exact .same x hc h
        · intro h
          cases h with
          | same _ _ h => exact ⟨rfl, h⟩
          | none h => exact absurd rfl hc
          | more _ h => exact absurd rfl hc

/-! ## The groups of the cluster -/

/-- `gs` are the groups which the brokers named by an answer listed, one broker after the other -/
def AllListed (net : Net W) (b : Brokers W) (gs : List Bytes) : Prop :=
  ∃ (r : MetadataResponse) (qs : List (Nat × ListGroupsResponse)), (∃ k w, (net.metadata k [] w).1 = (r, none)) ∧ qs.length = r.brokers.length ∧
    gs = qs.flatMap (fun q => q.2.groups.map ListedGroup.groupID) ∧
    ∀ (j : Nat) i q, r.brokers[j]? = some i → qs[j]? = some q → Done.listGroups q.1 (some q.2, none) ∈ b.log ∧ b.object i.nodeID = some q.1

theorem object_grows {b b' : Brokers W} (hg : Grows b b') {n : Int32} {h : Nat} (hb : b.object n = some h) : b'.object n = some h := by
  unfold Brokers.object at hb ⊢
  cases hc : b.cache.get n with
  | none =>
    rw [hc] at hb
    cases hb
  | some y =>
    rw [hc] at hb
    rw [hg.cache n y hc]
    exact hb

theorem helperLoop_listed (net : Net W) (is : List BrokerInfo) (acc gs : List Bytes) (b b' : Brokers W) (h : helperLoop net is acc b = (some gs, b')) :
    Grows b b' ∧ ∃ qs : List (Nat × ListGroupsResponse), qs.length = is.length ∧ gs = acc ++ qs.flatMap (fun q => q.2.groups.map ListedGroup.groupID) ∧
      ∀ (j : Nat) i q, is[j]? = some i → qs[j]? = some q → Done.listGroups q.1 (some q.2, none) ∈ b'.log ∧ b'.object i.nodeID = some q.1 := by
  induction is generalizing acc b with
  | nil =>
    simp only [helperLoop, Prod.mk.injEq, Option.some.injEq] at h
    obtain ⟨rfl, rfl⟩ := h
    exact ⟨.refl _, [], rfl, by simp, fun j i q hj => by simp at hj⟩
  | cons i is ih =>
    unfold helperLoop at h
    have h1 := getBroker_grows net i.nodeID b
    have h0 := (getBroker_spec net i.nodeID b).2
    revert h h1 h0
    rcases getBroker net i.nodeID b with ⟨_ | k, b1⟩ <;> intro h h1 h0
    · simp at h
    · simp only at h
      have hl := askListGroups_looks net k.1 b1
      have hlog : (.listGroups k.1 (askListGroups net k.1 b1).1) ∈ (askListGroups net k.1 b1).2.log := by simp [askListGroups]
      have hob : (askListGroups net k.1 b1).2.object i.nodeID = some k.1 := by
        rw [Brokers.object, hl.cache, h0 k rfl]
        rfl
      revert h hl hlog hob
      rcases askListGroups net k.1 b1 with ⟨⟨_ | r, _ | e⟩, b2⟩ <;> intro h hl hlog hob
      · simp at h
      · simp at h
      · simp only at h
        obtain ⟨hg, qs, q1, q2, q3⟩ := ih _ _ h
        refine ⟨(h1.trans hl.grows).trans hg, (k.1, r) :: qs, by simp [q1], by rw [q2]; simp, ?_⟩
        intro j i' q hj hq
        cases j with
        | zero =>
          simp only [List.getElem?_cons_zero, Option.some.injEq] at hj hq
          subst hj hq
          obtain ⟨ext, hx⟩ := hg.log
          exact ⟨by rw [hx]; exact List.mem_append.2 (.inl hlog), object_grows hg hob⟩
        | succ j => exact q3 j i' q hj hq
      · simp at h

theorem helperGroups_listed (net : Net W) (gs : List Bytes) (b b' : Brokers W) (h : helperGroups net b = (some gs, b')) : AllListed net b' gs := by
  unfold helperGroups at h
  rcases hm : requestMetaData net [] b with ⟨⟨r, _ | e⟩, b1⟩
  · rw [hm] at h
    obtain ⟨-, qs, h1, h2, h3⟩ := helperLoop_listed net _ _ _ _ _ h
    exact ⟨r, qs, requestMetaData_answer net _ _ _ _ hm, h1, by simpa using h2, h3⟩
  · rw [hm] at h
    simp at h

/-- C148: without `--group`, the groups are all that the brokers of the cluster list.
Missing: `C148_violated_crash`, `C148_violated_silent`. -/
theorem C148_all_groups_partial (net : Net W) (lib : RegexpLib) (b b' : Brokers W) (gs : List Bytes) (h : getGroups net lib [] b = (.ok (some gs), b')) :
    AllListed net b' gs := by
  simp only [getGroups, if_pos, Prod.mk.injEq, Out.ok.injEq] at h
  exact helperGroups_listed net gs b b' (Prod.ext h.1 h.2)

/-- C148: with a name without star, that group.
Missing: names with a star (`C148_violated_plus`). -/
theorem C148_one_group_partial (net : Net W) (lib : RegexpLib) (b : Brokers W) (group : Bytes) (hne : group ≠ []) (hs : 42 ∉ group) :
    getGroups net lib group b = (.ok (some [group]), b) := by
  unfold getGroups
  rw [if_neg hne, if_pos]
  simpa using hs

/-- C148: with a pattern made of dots, stars and characters that mean nothing to the regexp library, those of the groups listed that fit it, in the order listed.
Missing for the full statement: other characters (`C148_violated_crash`, `C148_violated_plus`). -/
theorem C148_pattern_partial (net : Net W) (lib : RegexpLib) (hl : Regexps lib) (b : Brokers W) (group : Bytes) (hg : ∀ c ∈ group, Inert c) (hs : 42 ∈ group) :
    (∃ b', getGroups net lib group b = (.ok none, b')) ∨
    ∃ b' all gs, getGroups net lib group b = (.ok (some gs), b') ∧ AllListed net b' all ∧
      ((∀ s ∈ all, PlainName s) → gs.Sublist all ∧ ∀ s, s ∈ gs ↔ s ∈ all ∧ Glob group s) := by
  obtain ⟨m, h1, h2⟩ := hl.good (globPattern group) _ (reParse_glob group hg [] .start (by decide))
  have hne : group ≠ [] := fun e => by rw [e] at hs; cases hs
  have hc : ¬ group.contains 42 = false := by simpa using hs
  unfold getGroups
  rw [if_neg hne, if_neg hc, h1]
  simp only
  rcases hh : helperGroups net b with ⟨_ | all, b'⟩
  · exact .inl ⟨b', rfl⟩
  · right
    refine ⟨b', all, all.filter m, rfl, helperGroups_listed net all b b' hh, fun hp => ⟨List.filter_sublist, fun s => ?_⟩⟩
    rw [List.mem_filter]
    constructor
    · rintro ⟨ha, hm⟩
      rw [h2 s (hp s ha)] at hm
      exact ⟨ha, (reMatches_glob group s (hp s ha)).1 hm⟩
    · rintro ⟨ha, hm⟩
      refine ⟨ha, ?_⟩
      rw [h2 s (hp s ha)]
      exact (reMatches_glob group s (hp s ha)).2 hm

/-- the character is one that the item stands for: itself, or any but the end of a line -/
def ReItem.Stands : ReItem → UInt8 → Prop
  | .one c, x => x = c
  | .any, x => x ≠ 10

/-- the texts that a token stands for, after the documentation of regexp/syntax: `x`, `x*`, `x+`, `x?` -/
def ReTok.Lang : ReTok → Bytes → Prop
  | .once i, w => ∃ x, w = [x] ∧ i.Stands x
  | .star i, w => ∀ x ∈ w, i.Stands x
  | .plus i, w => w ≠ [] ∧ ∀ x ∈ w, i.Stands x
  | .opt i, w => w = [] ∨ ∃ x, w = [x] ∧ i.Stands x

/-- the texts that an expression stands for: one for each token, one after the other -/
def ReLang : List ReTok → Bytes → Prop
  | [], w => w = []
  | t :: ts, w => ∃ u v, w = u ++ v ∧ t.Lang u ∧ ReLang ts v

theorem ReItem.fits_iff (i : ReItem) (x : UInt8) : i.fits x = true ↔ i.Stands x := by
  cases i with
  | one c => simp [ReItem.fits, ReItem.Stands]
  | any => simp [ReItem.fits, ReItem.Stands]

theorem starFits_lang (i : ReItem) (k : Bytes → Bool) (s : Bytes) :
    starFits i k s = true ↔ ∃ u v, s = u ++ v ∧ (∀ x ∈ u, i.Stands x) ∧ k v = true := by
  induction s with
  | nil =>
    simp only [starFits]
    constructor
    · intro h
      exact ⟨[], [], rfl, by simp, h⟩
    · rintro ⟨u, v, h1, -, h2⟩
      have := List.append_eq_nil_iff.1 h1.symm
      rw [this.2] at h2
      exact h2
  | cons x s ih =>
    simp only [starFits, Bool.or_eq_true, Bool.and_eq_true, ih, ReItem.fits_iff]
    constructor
    · rintro (h | ⟨hx, u, v, h1, h2, h3⟩)
      · exact ⟨[], _, rfl, by simp, h⟩
      · refine ⟨x :: u, v, by rw [h1]; rfl, ?_, h3⟩
        intro y hy
        rcases List.mem_cons.1 hy with rfl | hy
        · exact hx
        · exact h2 y hy
    · rintro ⟨u, v, h1, h2, h3⟩
      cases u with
      | nil =>
        left
        rw [List.nil_append] at h1
        rw [h1]
        exact h3
      | cons y u =>
        right
        simp only [List.cons_append, List.cons.injEq] at h1
        exact ⟨h1.1 ▸ h2 y (by simp), u, v, h1.2, fun z hz => h2 z (List.mem_cons_of_mem _ hz), h3⟩

theorem reMatches_lang (ts : List ReTok) (s : Bytes) : reMatches ts s = true ↔ ReLang ts s := by
  induction ts generalizing s with
  | nil => simp [reMatches, ReLang]
  | cons t ts ih =>
    cases t with
    | once i =>
      cases s with
      | nil =>
        simp only [reMatches, ReLang, ReTok.Lang]
        constructor
        · simp
        · rintro ⟨u, v, h1, ⟨x, h2, -⟩, -⟩
          subst h2
          cases h1
      | cons x s =>
        simp only [reMatches, ReLang, ReTok.Lang, Bool.and_eq_true, ih, ReItem.fits_iff]
        constructor
        · rintro ⟨h1, h2⟩
          exact ⟨[x], s, rfl, ⟨x, rfl, h1⟩, h2⟩
        · rintro ⟨u, v, h1, ⟨y, h2, h3⟩, h4⟩
          subst h2
          simp only [List.singleton_append, List.cons.injEq] at h1
          obtain ⟨rfl, rfl⟩ := h1
          exact ⟨h3, h4⟩
    | star i =>
      simp only [reMatches, starFits_lang, ReLang, ReTok.Lang, ih]
    | plus i =>
      cases s with
      | nil =>
        simp only [reMatches, ReLang, ReTok.Lang]
        constructor
        · simp
        · rintro ⟨u, v, h1, ⟨h2, -⟩, -⟩
          exact absurd (List.append_eq_nil_iff.1 h1.symm).1 h2
      | cons x s =>
        simp only [reMatches, ReLang, ReTok.Lang, Bool.and_eq_true, starFits_lang, ih, ReItem.fits_iff]
        constructor
        · rintro ⟨h1, u, v, h2, h3, h4⟩
          refine ⟨x :: u, v, by rw [h2]; rfl, ⟨by simp, ?_⟩, h4⟩
          intro y hy
          rcases List.mem_cons.1 hy with rfl | hy
          · exact h1
          · exact h3 y hy
        · rintro ⟨u, v, h1, ⟨h2, h3⟩, h4⟩
          cases u with
          | nil => exact absurd rfl h2
          | cons y u =>
            simp only [List.cons_append, List.cons.injEq] at h1
            exact ⟨h1.1 ▸ h3 y (by simp), u, v, h1.2, fun z hz => h3 z (List.mem_cons_of_mem _ hz), h4⟩
    | opt i =>
      cases s with
      | nil =>
        simp only [reMatches, ReLang, ReTok.Lang, ih]
        constructor
        · intro h
          exact ⟨[], [], rfl, .inl rfl, h⟩
        · rintro ⟨u, v, h1, -, h2⟩
          have := List.append_eq_nil_iff.1 h1.symm
          rw [this.2] at h2
          exact h2
      | cons x s =>
        simp only [reMatches, ReLang, ReTok.Lang, Bool.and_eq_true, Bool.or_eq_true, ih, ReItem.fits_iff]
        constructor
        · rintro (h | ⟨h1, h2⟩)
          · exact ⟨[], _, rfl, .inl rfl, h⟩
          · exact ⟨[x], s, rfl, .inr ⟨x, rfl, h1⟩, h2⟩
        · rintro ⟨u, v, h1, h2 | ⟨y, h2, h3⟩, h4⟩
          · subst h2
            left
            rw [List.nil_append] at h1
            rw [h1]
            exact h4
          · right
            subst h2
            simp only [List.singleton_append, List.cons.injEq] at h1
            obtain ⟨rfl, rfl⟩ := h1
            exact ⟨h3, h4⟩

/-- C148, what is shown for a pattern with characters that the regexp library gives a meaning: those of the groups listed that the expression stands for,
read as the documentation of regexp/syntax says, in the order listed.
Missing for the full statement: these are not always those that fit the pattern (`C148_violated_plus`). -/
theorem C148_expression_partial (net : Net W) (lib : RegexpLib) (hl : Regexps lib) (b : Brokers W) (group : Bytes) (ts : List ReTok)
    (hg : reParse [] .start (globPattern group) = .ok ts) (hs : 42 ∈ group) :
    (∃ b', getGroups net lib group b = (.ok none, b')) ∨
    ∃ b' all gs, getGroups net lib group b = (.ok (some gs), b') ∧ AllListed net b' all ∧
      ((∀ s ∈ all, PlainName s) → gs.Sublist all ∧ ∀ s, s ∈ gs ↔ s ∈ all ∧ ReLang ts s) := by
  obtain ⟨m, h1, h2⟩ := hl.good (globPattern group) _ hg
  have hne : group ≠ [] := fun e => by rw [e] at hs; cases hs
  have hc : ¬ group.contains 42 = false := by simpa using hs
  unfold getGroups
  rw [if_neg hne, if_neg hc, h1]
  simp only
  rcases hh : helperGroups net b with ⟨_ | all, b'⟩
  · exact .inl ⟨b', rfl⟩
  · right
    refine ⟨b', all, all.filter m, rfl, helperGroups_listed net all b b' hh, fun hp => ⟨List.filter_sublist, fun s => ?_⟩⟩
    rw [List.mem_filter]
    constructor
    · rintro ⟨ha, hm⟩
      rw [h2 s (hp s ha)] at hm
      exact ⟨ha, (reMatches_lang ts s).1 hm⟩
    · rintro ⟨ha, hm⟩
      refine ⟨ha, ?_⟩
      rw [h2 s (hp s ha)]
      exact (reMatches_lang ts s).2 hm

/-- "a+b*" is read as one or more `a`, then `b`, then anything -/
example : reParse [] .start (globPattern [97, 43, 98, 42]) = .ok [.plus (.one 97), .once (.one 98), .star .any] := by decide

/-- "ab?*" is read as `a`, perhaps `b`, then anything -/
example : reParse [] .start (globPattern [97, 98, 63, 42]) = .ok [.once (.one 97), .opt (.one 98), .star .any] := by decide

/-- the library, as far as it is modelled -/
def modelLib : RegexpLib := fun p =>
  match reParse [] .start (p.drop 1).dropLast with
  | .ok ts => some (reMatches ts)
  | _ => none

theorem modelLib_regexps : Regexps modelLib where
  good p ts h := by
    refine ⟨reMatches ts, ?_, fun _ _ => rfl⟩
    unfold modelLib
    simp only [List.cons_append, List.drop_succ_cons, List.drop_zero, List.dropLast_concat]
    rw [h]
  bad p h := by
    unfold modelLib
    simp only [List.cons_append, List.drop_succ_cons, List.drop_zero, List.dropLast_concat]
    rw [h]

/-- C148 does not hold for a pattern like "c++*": the tool crashes. -/
theorem C148_violated_crash (net : Net W) (lib : RegexpLib) (hl : Regexps lib) (b : Brokers W) :
    (getGroups net lib [99, 43, 43, 42] b).1 = .panic := by
  unfold getGroups
  rw [if_neg (by decide), if_neg (by decide), hl.bad (globPattern [99, 43, 43, 42]) (by decide)]

/-- each broker lists the groups "a+b" and "aab" -/
def plusNet : Net Nat := demoNet (fun _ => false) (fun _ _ => (demoMeta, none)) (fun _ => [⟨[97, 43, 98], [], [], [], none⟩, ⟨[97, 97, 98], [], [], [], none⟩])

/-- C148 does not hold for the pattern "a+b*": the group "a+b" fits and is not shown; "aab" is shown and does not fit. -/
theorem C148_violated_plus : okPart (getGroups plusNet modelLib [97, 43, 98, 42] (demoBrokers plusNet)) = some (some [[97, 97, 98], [97, 97, 98]]) ∧
    Glob [97, 43, 98, 42] [97, 43, 98] ∧ ¬ Glob [97, 43, 98, 42] [97, 97, 98] := by
  refine ⟨by decide +kernel, .same _ (by decide) (.same _ (by decide) (.same _ (by decide) (.none .nil))), ?_⟩
  intro h
  cases h with
  | same _ _ h => cases h

example : okPart (getGroups plusNet modelLib [97, 42, 98] (demoBrokers plusNet)) = some (some [[97, 43, 98], [97, 97, 98], [97, 43, 98], [97, 97, 98]]) := by
  decide +kernel

example : okPart (getGroups plusNet modelLib [97, 97, 42] (demoBrokers plusNet)) = some (some [[97, 97, 98], [97, 97, 98]]) := by
  decide +kernel

/-! ## Members -/

/-- the member to whom the partition belongs -/
def Brokers.Subscriptions.owner (s : Subscriptions) (t : Bytes) (p : Int32) : Option Bytes := (s.get t).bind fun m => m.get p

theorem setMember_get (member : Bytes) (ps : List Int32) (m : AMap Int32 Bytes) (p : Int32) :
    (ps.foldl (fun m q => m.set q member) m).get p = if p ∈ ps then some member else m.get p := by
  induction ps generalizing m with
  | nil => simp
  | cons q ps ih =>
    rw [List.foldl_cons, ih, AMap.get_set]
    by_cases h : p ∈ ps
    · simp [h]
    · by_cases hq : p = q
      · simp [hq]
      · simp [h, hq]

theorem subscribe_owner (member : Bytes) (subs : Subscriptions) (a : PartitionAssignment) (t : Bytes) (p : Int32) :
    (subscribe member subs a).owner t p = if t = a.topic ∧ p ∈ a.partitions then some member else subs.owner t p := by
  unfold subscribe Subscriptions.owner
  rw [AMap.get_set]
  by_cases ht : t = a.topic
  · subst ht
    rw [if_pos rfl]
    simp only [Option.bind_some, true_and]
    rw [setMember_get]
    by_cases hp : p ∈ a.partitions
    · simp [hp]
    · simp only [if_neg hp]
      cases subs.get a.topic with
      | none => rfl
      | some m => rfl
  · simp [ht]

theorem subscribe_topics (member : Bytes) (subs : Subscriptions) (a : PartitionAssignment) (t : Bytes) :
    ((subscribe member subs a).get t).isSome = true ↔ t = a.topic ∨ (subs.get t).isSome = true := by
  unfold subscribe
  rw [AMap.get_set]
  by_cases ht : t = a.topic <;> simp [ht]

/-- what the members of a group were assigned: `mine m` is read from the bytes of member `m`, empty for a member without assignment -/
def Assigned (ms : List MemberDetail) (mine : MemberDetail → List PartitionAssignment) : Prop :=
  ∀ m ∈ ms, (m.rawMemberAssignment = [] ∧ mine m = []) ∨ ∃ (v : Int16) (u : Bytes), (mine m).length < 2 ^ 31 ∧ u.length < 2 ^ 31 ∧
    (∀ p ∈ mine m, p.topic.length < 2 ^ 16 ∧ p.partitions.length < 2 ^ 32) ∧
    m.rawMemberAssignment = Kafka.assignment v.toInt ((mine m).map fun p => (p.topic, p.partitions.map Int32.toInt)) u

/-- the member has the partition -/
def Owns (mine : MemberDetail → List PartitionAssignment) (m : MemberDetail) (t : Bytes) (p : Int32) : Prop :=
  ∃ a ∈ mine m, a.topic = t ∧ p ∈ a.partitions

theorem subscribed_inv (member : Bytes) (as : List PartitionAssignment) (subs : Subscriptions) :
    ((AMap.keys subs).Nodup → (AMap.keys (as.foldl (subscribe member) subs)).Nodup) ∧
    (∀ t, ((as.foldl (subscribe member) subs).get t).isSome = true ↔ (∃ a ∈ as, a.topic = t) ∨ (subs.get t).isSome = true) ∧
    (∀ t p, (∃ a ∈ as, a.topic = t ∧ p ∈ a.partitions) → Subscriptions.owner (as.foldl (subscribe member) subs) t p = some member) ∧
    (∀ t p, (¬ ∃ a ∈ as, a.topic = t ∧ p ∈ a.partitions) → Subscriptions.owner (as.foldl (subscribe member) subs) t p = subs.owner t p) := by
  induction as generalizing subs with
  | nil => exact ⟨id, fun t => by simp, fun t p ⟨a, ha, _⟩ => (by cases ha), fun t p _ => rfl⟩
  | cons a as ih =>
    obtain ⟨h0, h1, h2, h3⟩ := ih (subscribe member subs a)
    refine ⟨fun h => h0 (AMap.nodup_keys_set _ _ _ h), fun t => ?_, fun t p h => ?_, fun t p h => ?_⟩
    · rw [List.foldl_cons, h1, subscribe_topics]
      simp only [List.mem_cons, exists_eq_or_imp]
      grind
    · rw [List.foldl_cons]
      by_cases hx : ∃ a ∈ as, a.topic = t ∧ p ∈ a.partitions
      · exact h2 t p hx
      · rw [h3 t p hx, subscribe_owner, if_pos]
        obtain ⟨x, hx1, hx2, hx3⟩ := h
        rcases List.mem_cons.1 hx1 with rfl | hm
        · exact ⟨hx2.symm, hx3⟩
        · exact absurd ⟨x, hm, hx2, hx3⟩ hx
    · rw [List.foldl_cons, h3 t p fun ⟨x, hx, hx'⟩ => h ⟨x, List.mem_cons_of_mem _ hx, hx'⟩, subscribe_owner, if_neg]
      rintro ⟨h4, h5⟩
      exact h ⟨a, by simp, h4.symm, h5⟩

theorem subscribeAll_inv (mine : MemberDetail → List PartitionAssignment) (ms : List MemberDetail) (ha : Assigned ms mine) (subs : Subscriptions) :
    ∃ subs', subscribeAll ms subs = .ok subs' ∧
    ((AMap.keys subs).Nodup → (AMap.keys subs').Nodup) ∧
    (∀ t, (subs'.get t).isSome = true ↔ (∃ m ∈ ms, ∃ a ∈ mine m, a.topic = t) ∨ (subs.get t).isSome = true) ∧
    (∀ t p id, (∃ m ∈ ms, Owns mine m t p) → (∀ m ∈ ms, Owns mine m t p → m.memberID = id) → Subscriptions.owner subs' t p = some id) ∧
    (∀ t p, (¬ ∃ m ∈ ms, Owns mine m t p) → Subscriptions.owner subs' t p = subs.owner t p) := by
  induction ms generalizing subs with
  | nil => exact ⟨subs, rfl, id, fun t => by simp, fun t p id ⟨a, ha, _⟩ => (by cases ha), fun t p _ => rfl⟩
  | cons m ms ih =>
    have ih := ih fun x hx => ha x (List.mem_cons_of_mem _ hx)
    have step : ∃ subs1, subscribeAll (m :: ms) subs = subscribeAll ms subs1 ∧ subs1 = (mine m).foldl (subscribe m.memberID) subs := by
      refine ⟨_, ?_, rfl⟩
      rcases ha m (by simp) with ⟨h1, h2⟩ | ⟨v, u, h1, h2, h3, h4⟩
      · rw [subscribeAll, if_pos h1, h2]
        rfl
      · have := C24_receive v (mine m) u h1 h2 h3
        rw [← h4] at this
        rw [subscribeAll, if_neg, this]
        intro e
        rw [e] at this
        simp [newMemberAssignment] at this
    obtain ⟨subs1, hs, h1⟩ := step
    obtain ⟨g0, g1, g2, g3⟩ := subscribed_inv m.memberID (mine m) subs
    rw [← h1] at g0 g1 g2 g3
    obtain ⟨subs', i0, i1, i2, i3, i4⟩ := ih subs1
    refine ⟨subs', hs.trans i0, fun h => i1 (g0 h), fun t => ?_, fun t p id hx hall => ?_, fun t p hx => ?_⟩
    · rw [i2, g1]
      simp only [List.mem_cons, exists_eq_or_imp]
      grind
    · by_cases hy : ∃ m ∈ ms, Owns mine m t p
      · exact i3 t p id hy fun x hx => hall x (List.mem_cons_of_mem _ hx)
      · rw [i4 t p hy]
        obtain ⟨x, hx1, hx2⟩ := hx
        rcases List.mem_cons.1 hx1 with rfl | hm
        · rw [g2 t p hx2, hall x (by simp) hx2]
        · exact absurd ⟨x, hm, hx2⟩ hy
    · rw [i4 t p fun ⟨x, h1, h2⟩ => hx ⟨x, List.mem_cons_of_mem _ h1, h2⟩, g3 t p fun h => hx ⟨m, by simp, h⟩]

/-- C148: the topics of a group are those of its members' assignments, and each partition is shown with the member it is assigned to (none if it is assigned to none).
Missing for the full statement: answers which the decoder refuses (`C148_violated_idle`). -/
theorem C148_members_partial (r : DescribeGroupsResponse) (ms : List MemberDetail) (hms : ms = r.groups.flatMap GroupDetail.members)
    (mine : MemberDetail → List PartitionAssignment) (ha : Assigned ms mine) :
    ∃ subs, subscriptionsFrom (.ok r) = .ok subs ∧ (AMap.keys subs).Nodup ∧
    (∀ t, t ∈ AMap.keys subs ↔ ∃ m ∈ ms, ∃ a ∈ mine m, a.topic = t) ∧
    ∀ t p, (∀ m ∈ ms, ∀ m' ∈ ms, Owns mine m t p → Owns mine m' t p → m.memberID = m'.memberID) →
      ∀ id, Subscriptions.owner subs t p = some id ↔ ∃ m ∈ ms, m.memberID = id ∧ Owns mine m t p := by
  obtain ⟨subs, i0, i1, i2, i3, i4⟩ := subscribeAll_inv mine ms ha []
  refine ⟨subs, ?_, i1 (by simp [AMap.keys]), fun t => ?_, fun t p hu id => ?_⟩
  · simp only [subscriptionsFrom, subscriptionsOf, ← hms, i0]
  · have := i2 t
    have hk := AMap.get_eq_none_iff subs t
    simp only [AMap.get_nil, Option.isSome_none, Bool.false_eq_true, or_false] at this
    rw [← this]
    cases hg : AMap.get subs t with
    | none => simp [hk.1 hg]
    | some y =>
      simp only [Option.isSome_some, iff_true]
      by_contra hn
      rw [hk.2 hn] at hg
      cases hg
  · constructor
    · intro h
      by_cases hx : ∃ m ∈ ms, Owns mine m t p
      · obtain ⟨m, hm, ho⟩ := hx
        have := i3 t p m.memberID ⟨m, hm, ho⟩ fun m' hm' ho' => hu m' hm' m hm ho' ho
        rw [h] at this
        exact ⟨m, hm, (Option.some.inj this).symm, ho⟩
      · rw [i4 t p hx] at h
        cases h
    · rintro ⟨m, hm, rfl, ho⟩
      exact i3 t p _ ⟨m, hm, ho⟩ fun m' hm' ho' => hu m' hm' m hm ho' ho

example : ∃ ms mine, Assigned ms mine ∧ subscribeAll ms [] = .ok [([116], [(0, [109]), (1, [110])])] :=
  ⟨[⟨[109], [], [], [], [0, 0, 0, 0, 0, 1, 0, 1, 116, 0, 0, 0, 1, 0, 0, 0, 0, 0, 0, 0, 0], none⟩,
     ⟨[110], [], [], [], [0, 0, 0, 0, 0, 1, 0, 1, 116, 0, 0, 0, 1, 0, 0, 0, 1, 0, 0, 0, 0], none⟩, ⟨[111], [], [], [], [], none⟩],
    fun m => if m.memberID = [109] then [⟨[116], [0]⟩] else if m.memberID = [110] then [⟨[116], [1]⟩] else [],
    by
      intro m hm
      simp only [List.mem_cons, List.not_mem_nil, or_false] at hm
      rcases hm with rfl | rfl | rfl
      · exact .inr ⟨0, [], by decide, by decide, by decide, by decide⟩
      · exact .inr ⟨0, [], by decide, by decide, by decide, by decide⟩
      · exact .inl ⟨rfl, by decide⟩,
    by decide +kernel⟩

/-! ## What is printed -/

/-- the lines tell of the partitions `ps`, in order, end offsets `off`, positions `com` and the difference -/
def TrueRows (ps : List Int32) (off com : Int32 → Int64) (rows : List PendingRow) : Prop :=
  (rows.map PendingRow.partition).Perm ps ∧ (rows.map PendingRow.partition).Pairwise (· < ·) ∧
    ∀ row ∈ rows, row.offset = off row.partition ∧ row.committed = com row.partition ∧
      row.lag.toInt = (off row.partition).toInt - (com row.partition).toInt

theorem getCommittedAt_ok {fetch : Nat → OffsetFetchRequest → W → Except Err OffsetFetchResponse × W} {group topic : Bytes} {com : Int32 → Int64}
    (hc : Remembers fetch group topic com) (k : Nat) (ps : List Int32) (b b' : Brokers W) (m : AMap Int32 Int64)
    (h : getCommittedAt fetch k group topic ps b = (.ok m, b')) : ∀ p ∈ ps, m.get p = some (com p) := by
  intro p hp
  have hx := committedRequest_exact group topic ps
  unfold getCommittedAt at h
  rcases hf : fetch k (committedRequest group topic ps) b.world with ⟨_ | r, w⟩
  · rw [hf] at h
    simp at h
  · rw [hf] at h
    simp only [Prod.mk.injEq, Out.ok.injEq] at h
    have hin := (hx.2.exact topic p).2 (List.mem_map.2 ⟨p, hp, rfl⟩)
    obtain ⟨hex, hall⟩ := hc k _ b.world r hx.1 (by rw [hf]) p hin
    rw [← h.1]
    unfold committedMap
    rw [setAll_get _ _ p (com p)]
    · rw [if_pos]
      obtain ⟨e, he, hep⟩ := hex
      exact List.mem_map.2 ⟨(e.partitionID, e.offset), List.mem_map.2 ⟨e, he, rfl⟩, hep⟩
    · intro e he hep
      obtain ⟨x, hx1, rfl⟩ := List.mem_map.1 he
      exact hall x hx1 hep

theorem getPendingAt_true (net : Net W) (fetch : Nat → OffsetFetchRequest → W → Except Err OffsetFetchResponse × W) (k : Nat) (group topic : Bytes) (ps : List Int32)
    (off com : Int32 → Int64) (ho : Orderly net topic ps off) (hc : Remembers fetch group topic com)
    (hr : ∀ p ∈ ps, 0 ≤ (com p).toInt ∧ (com p).toInt ≤ (off p).toInt) (b b' : Brokers W) (rows : List PendingRow)
    (h : getPendingAt net fetch k group topic b = (.ok rows, b')) : TrueRows ps off com rows := by
  obtain ⟨offsets, b1, h1, h⟩ := andThen_ok h
  obtain ⟨l, b2, h2, h⟩ := andThen_ok h
  obtain ⟨committed, b3, h3, h⟩ := andThen_ok h
  simp only [Prod.mk.injEq, Out.ok.injEq] at h
  have hmap : rows.map PendingRow.partition = l := by
    rw [← h.1, List.map_map]
    have : (PendingRow.partition ∘ pendingRow offsets committed) = id := by
      funext p
      rfl
    rw [this, List.map_id]
  obtain ⟨hperm, hlt⟩ := getPartitions_ok ho _ _ _ h2
  refine ⟨hmap ▸ hperm, hmap ▸ hlt, ?_⟩
  intro row hrow
  rw [← h.1] at hrow
  obtain ⟨p, hp, rfl⟩ := List.mem_map.1 hrow
  have hps := hperm.mem_iff.1 hp
  have ho' := (getOffset_ok ho _ _ _ h1).2 p
  rw [if_pos hps] at ho'
  have hc' := getCommittedAt_ok hc _ _ _ _ _ h3 p hp
  have hrp := hr p hps
  have hne : off p ≠ -1 := by
    intro e
    rw [e] at hrp
    have : (-1 : Int64).toInt = -1 := by decide
    omega
  simp only [pendingRow, ho', hc', Option.getD_some, if_neg hne, true_and]
  have hlt := (off p).toInt_lt
  rw [Int64.toInt_sub, Int.bmod_eq_of_le] <;> omega

/-- what is printed is true wherever the cluster answers orderly -/
def TrueOut (net : Net W) (fetch : Nat → OffsetFetchRequest → W → Except Err OffsetFetchResponse × W) (out : List PendingOut) : Prop :=
  ∀ g t members rows, .table g t members rows ∈ out → ∀ ps off com, Orderly net t ps off → Remembers fetch g t com →
    (∀ p ∈ ps, 0 ≤ (com p).toInt ∧ (com p).toInt ≤ (off p).toInt) → TrueRows ps off com rows

/-- one entry per topic, in this order: a table with the members given, or the failure -/
def Answered (g : Bytes) (ts : List (Bytes × Option (AMap Int32 Bytes))) (out : List PendingOut) : Prop :=
  List.Forall₂ (fun t o => (∃ rows, o = .table g t.1 t.2 rows) ∨ ∃ e, o = .failed g (some t.1) e) ts out

/-- what is shown of a group: one entry for the topic asked for, or for each topic its members are assigned according to the answer about it;
or that the group could not be described -/
def ShownGroup (describe : Nat → Bytes → W → Out DescribeGroupsResponse × W) (topic g : Bytes) (out : List PendingOut) : Prop :=
  (∃ e, out = [.failed g none e]) ∨
    ∃ ts h w subs, subscriptionsFrom (describe h g w).1 = .ok subs ∧ Answered g ts out ∧
      ((topic ≠ [] ∧ ts = [(topic, none)]) ∨ (topic = [] ∧ ts.Perm (subs.map fun e => (e.1, some e.2))))

theorem pendingTopics_answered (net : Net W) (fetch : Nat → OffsetFetchRequest → W → Except Err OffsetFetchResponse × W) (k : Nat) (g : Bytes)
    (ts : List (Bytes × Option (AMap Int32 Bytes))) (b b' : Brokers W) (out : List PendingOut) (h : pendingTopics net fetch k g ts b = (.ok out, b')) :
    Answered g ts out ∧ TrueOut net fetch out := by
  induction ts generalizing b b' out with
  | nil =>
    simp only [pendingTopics, Prod.mk.injEq, Out.ok.injEq] at h
    rw [← h.1]
    exact ⟨.nil, fun _ _ _ _ hm => (by cases hm)⟩
  | cons t ts ih =>
    obtain ⟨topic, members⟩ := t
    unfold pendingTopics at h
    rcases hp : getPendingAt net fetch k g topic b with ⟨rows | e | _, b1⟩
    · rw [hp] at h
      obtain ⟨o, b2, h1, h2⟩ := andThen_ok h
      simp only [Prod.mk.injEq, Out.ok.injEq] at h2
      obtain ⟨i1, i2⟩ := ih _ _ _ h1
      rw [← h2.1]
      refine ⟨.cons (.inl ⟨rows, rfl⟩) i1, fun g' t' members' rows' hm ps off com ho hc hr => ?_⟩
      rcases List.mem_cons.1 hm with he | hm
      · injection he with e1 e2 e3 e4
        subst e1 e2 e4
        exact getPendingAt_true net fetch k _ _ ps off com ho hc hr _ _ _ hp
      · exact i2 _ _ _ _ hm ps off com ho hc hr
    · rw [hp] at h
      obtain ⟨o, b2, h1, h2⟩ := andThen_ok h
      simp only [Prod.mk.injEq, Out.ok.injEq] at h2
      obtain ⟨i1, i2⟩ := ih _ _ _ h1
      rw [← h2.1]
      refine ⟨.cons (.inr ⟨e, rfl⟩) i1, fun g' t' members' rows' hm => ?_⟩
      rcases List.mem_cons.1 hm with he | hm
      · cases he
      · exact i2 _ _ _ _ hm
    · rw [hp] at h
      simp at h

theorem topicsFor_spec (net : Net W) (topic : Bytes) (subs : Subscriptions) (b : Brokers W) :
    (topic ≠ [] ∧ (topicsFor net topic subs b).1 = [(topic, none)]) ∨
    (topic = [] ∧ (topicsFor net topic subs b).1.Perm (subs.map fun e => (e.1, some e.2))) := by
  unfold topicsFor
  by_cases ht : topic = []
  · right
    rw [if_neg (by simpa using ht)]
    exact ⟨ht, (net.shuffle_perm _ _).map _⟩
  · left
    rw [if_pos ht]
    exact ⟨ht, rfl⟩

theorem getSubscriptions_ok (net : Net W) (describe : Nat → Bytes → W → Out DescribeGroupsResponse × W) (g : Bytes) (b b' : Brokers W) (k : Nat) (subs : Subscriptions)
    (h : getSubscriptions net describe g b = (.ok (k, subs), b')) : ∃ w, subscriptionsFrom (describe k g w).1 = .ok subs := by
  unfold getSubscriptions at h
  rcases hc : coordinatorBroker net g b with ⟨q | e | _, b1⟩
  · rw [hc] at h
    simp only [Prod.mk.injEq] at h
    have h1 := h.1
    cases hs : subscriptionsFrom (describe q g b1.world).1 with
    | error e =>
      rw [hs] at h1
      simp [Except.map] at h1
    | ok s =>
      rw [hs] at h1
      simp only [Except.map, Except.ok.injEq, Prod.mk.injEq] at h1
      refine ⟨b1.world, ?_⟩
      rw [← h1.1, ← h1.2]
      exact hs
  · rw [hc] at h
    simp at h
  · rw [hc] at h
    simp at h

theorem pendingGroups_shown (net : Net W) (describe : Nat → Bytes → W → Out DescribeGroupsResponse × W)
    (fetch : Nat → OffsetFetchRequest → W → Except Err OffsetFetchResponse × W) (topic : Bytes) (gs : List Bytes) (b b' : Brokers W) (out : List PendingOut)
    (h : pendingGroups net describe fetch topic gs b = (.ok out, b')) :
    (∃ outs, out = outs.flatten ∧ List.Forall₂ (ShownGroup describe topic) gs outs) ∧ TrueOut net fetch out := by
  induction gs generalizing b b' out with
  | nil =>
    simp only [pendingGroups, Prod.mk.injEq, Out.ok.injEq] at h
    rw [← h.1]
    exact ⟨⟨[], rfl, .nil⟩, fun _ _ _ _ hm => (by cases hm)⟩
  | cons g gs ih =>
    unfold pendingGroups at h
    rcases hs : getSubscriptions net describe g b with ⟨e | ⟨k, subs⟩, b1⟩
    · rw [hs] at h
      obtain ⟨o, b2, h1, h2⟩ := andThen_ok h
      simp only [Prod.mk.injEq, Out.ok.injEq] at h2
      obtain ⟨⟨outs, i0, i1⟩, i2⟩ := ih _ _ _ h1
      rw [← h2.1]
      refine ⟨⟨[.failed g none e] :: outs, by rw [i0]; rfl, .cons (.inl ⟨e, rfl⟩) i1⟩, fun g' t' members' rows' hm => ?_⟩
      rcases List.mem_cons.1 hm with he | hm
      · cases he
      · exact i2 _ _ _ _ hm
    · rw [hs] at h
      have hts := topicsFor_spec net topic subs b1
      simp only at h
      revert h hts
      rcases topicsFor net topic subs b1 with ⟨ts, b2⟩
      intro h hts
      simp only at h hts
      obtain ⟨o, b3, h1, h⟩ := andThen_ok h
      obtain ⟨o', b4, h2, h⟩ := andThen_ok h
      simp only [Prod.mk.injEq, Out.ok.injEq] at h
      obtain ⟨⟨outs, i0, i1⟩, i2⟩ := ih _ _ _ h2
      obtain ⟨j1, j2⟩ := pendingTopics_answered net fetch k g ts _ _ _ h1
      obtain ⟨w, hw⟩ := getSubscriptions_ok net describe g b b1 k subs hs
      rw [← h.1]
      refine ⟨⟨o :: outs, by rw [i0]; rfl, .cons (.inr ⟨ts, k, w, subs, hw, j1, hts⟩) i1⟩, fun g' t' members' rows' hm => ?_⟩
      rcases List.mem_append.1 hm with hm | hm
      · exact j2 _ _ _ _ hm
      · exact i2 _ _ _ _ hm

/-- C148: when the tool ends, it has shown for each group selected, in their order, the topic asked for or every topic subscribed to (a table or a logged failure),
or that the group could not be described; and the tables are true.
Missing for the full statement: a listing that fails selects nothing (`C148_violated_silent`). -/
theorem C148_tables_partial (net : Net W) (lib : RegexpLib) (describe : Nat → Bytes → W → Out DescribeGroupsResponse × W)
    (fetch : Nat → OffsetFetchRequest → W → Except Err OffsetFetchResponse × W) (group topic : Bytes) (b b' : Brokers W) (out : List PendingOut)
    (h : getPendingCmd net lib describe fetch group topic b = (.ok out, b')) :
    ∃ gs b1, getGroups net lib group b = (.ok gs, b1) ∧
      (∃ outs, out = outs.flatten ∧ List.Forall₂ (ShownGroup describe topic) (gs.getD []) outs) ∧ TrueOut net fetch out := by
  obtain ⟨gs, b1, h1, h2⟩ := andThen_ok h
  exact ⟨gs, b1, h1, pendingGroups_shown net describe fetch topic _ _ _ _ h2⟩

/-- a coordinator that describes a group by these bytes (`RequestAndGet` gives the decoder's error) -/
def describeWith (bytes : Bytes) : Nat → Bytes → Nat → Out DescribeGroupsResponse × Nat := fun _ _ w =>
  (match newDescribeGroupsResponse bytes with
    | .ok (r, none) => .ok r
    | .ok (_, some e) => .err e
    | .err e => .err e
    | .panic => .panic, w + 1)

example : okPart (getPendingCmd tallyNet modelLib (describeWith (Kafka.response .describeGroups 0 7 [] (Kafka.describeGroupsResponse
      [⟨0, [103], [], [], [], [⟨[109], [], [], [], Kafka.assignment 0 [([116], [0, 1])] []⟩]⟩]))) (tallyFetch fun _ => 7) [103] [] (demoBrokers tallyNet)) =
    some [.table [103] [116] (some [(0, [109]), (1, [109])]) [⟨0, 10, 7, 3⟩, ⟨1, 20, 7, 13⟩, ⟨2, 30, 7, 23⟩]] := by decide +kernel

/-- C148 does not hold while a member of the group has no assignment: the tool shows nothing of the group, even for a topic given by name. -/
theorem C148_violated_idle : okPart (getPendingCmd tallyNet modelLib (describeWith (Kafka.response .describeGroups 0 7 [] (Kafka.describeGroupsResponse
      [⟨0, [103], [], [], [], [⟨[109], [], [], [], Kafka.assignment 0 [([116], [0, 1])] []⟩, ⟨[110], [], [], [], []⟩]⟩])))
        (tallyFetch fun _ => 7) [103] [116] (demoBrokers tallyNet)) =
    some [.failed [103] none .emptyPayload] := by decide +kernel

/-- C148 does not hold when no broker answers: the tool ends as if there were no groups. -/
theorem C148_violated_silent : okPart (getPendingCmd deadNet modelLib (describeWith []) (tallyFetch fun _ => 7) [] [] (demoBrokers deadNet)) = some [] := by
  decide +kernel

end Healer
