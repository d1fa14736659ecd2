import Verif.Model.Keyed

/-!
# C135: messages added by several goroutines reach Kafka when the producer is closed

The specification: a call returns nil (`added`), requests go out (`sent`); once `Close` has returned, the messages sent to a
partition are those added for it, each once and in the order in which the calls returned.
-/

namespace Healer

/-- the messages sent to a partition, in order -/
def sentTo (p : Nat) (log : List AddSeen) : List Nat :=
  log.flatMap fun | .sent q ms => if q = p then ms else [] | .added _ _ => []

/-- the messages for which `AddMessage` returned nil, in order -/
def addedTo (p : Nat) (log : List AddSeen) : List Nat :=
  log.flatMap fun | .added q m => if q = p then [m] else [] | .sent _ _ => []

theorem sentTo_append (p : Nat) (a b : List AddSeen) : sentTo p (a ++ b) = sentTo p a ++ sentTo p b := by
  simp [sentTo]

theorem addedTo_append (p : Nat) (a b : List AddSeen) : addedTo p (a ++ b) = addedTo p a ++ addedTo p b := by
  simp [addedTo]

/-- the goroutine has found no partition producer for `p` and has not yet stored one -/
def Adding.Busy (s : Adding) (g p : Nat) : Prop := (∃ m, s.pos g = .making p m) ∨ ∃ l m, s.pos g = .made l p m

/-- what waits in the `l`-th partition producer -/
def Adding.waitingIn (s : Adding) (l : Nat) : List Nat :=
  match s.lines[l]? with
  | some x => x.waiting
  | none => []

/-- what waits for `p` in the partition producer which the map has -/
def Adding.waitingFor (s : Adding) (p : Nat) : List Nat :=
  match s.table.get p with
  | some l => s.waitingIn l
  | none => []

structure Adding.Inv (s : Adding) : Prop where
  tab : ∀ p l, s.table.get p = some l → ∃ x, s.lines[l]? = some x ∧ x.part = p
  owned : ∀ l x, s.lines[l]? = some x → x.waiting ≠ [] → s.table.get x.part = some l
  hold : ∀ g l m, s.pos g = .holding l m → ∃ x, s.lines[l]? = some x ∧ s.table.get x.part = some l
  making : ∀ g p m, s.pos g = .making p m → s.table.get p = none
  made : ∀ g l p m, s.pos g = .made l p m → s.table.get p = none ∧ s.lines[l]? = some ⟨p, []⟩
  alone : ∀ g g' p, s.Busy g p → s.Busy g' p → g = g'
  nodup : (AMap.keys s.table).Nodup
  count : ∀ p, sentTo p s.log ++ s.waitingFor p = addedTo p s.log

theorem Adding.inv_start : Adding.Inv {} where
  tab := by intro p l h; cases h
  owned := by intro l x h; simp at h
  hold := by intro g l m h; cases h
  making := by intro g p m h; cases h
  made := by intro g l p m h; cases h
  alone := by intro g g' p h; rcases h with ⟨_, h⟩ | ⟨_, _, h⟩ <;> cases h
  nodup := by simp [AMap.keys]
  count := by intro p; rfl

/-- replacing a line of the same partition -/
theorem Adding.Inv.inv_set {s : Adding} (h : s.Inv) (l : Nat) (x : PartLine) (hx : s.lines[l]? = some x) (w : List Nat) (ext : List AddSeen)
    (ht : s.table.get x.part = some l)
    (hc : ∀ p, sentTo p s.log ++ sentTo p ext ++ (if p = x.part then w else s.waitingFor p) = addedTo p s.log ++ addedTo p ext) :
    Adding.Inv { s with lines := s.lines.set l { x with waiting := w }, log := s.log ++ ext } := by
  have hlt : l < s.lines.length := (List.getElem?_eq_some_iff.mp hx).1
  have hg : ∀ l', (s.lines.set l { x with waiting := w })[l']? = if l' = l then some { x with waiting := w } else s.lines[l']? := by
    intro l'
    rw [List.getElem?_set]
    by_cases e : l = l'
    · subst e; simp [hlt]
    · have e' : ¬ l' = l := fun h => e h.symm
      simp [e, e']
  constructor
  · intro p l' h'
    obtain ⟨y, hy, hp⟩ := h.tab p l' h'
    simp only [hg]
    by_cases e : l' = l
    · subst e; rw [hx] at hy; cases hy; exact ⟨_, if_pos rfl, hp⟩
    · exact ⟨y, by rw [if_neg e]; exact hy, hp⟩
  · intro l' y hy hw
    simp only [hg] at hy
    by_cases e : l' = l
    · subst e; rw [if_pos rfl] at hy; cases hy; exact ht
    · rw [if_neg e] at hy; exact h.owned l' y hy hw
  · intro g l' m hp
    obtain ⟨y, hy, h'⟩ := h.hold g l' m hp
    simp only [hg]
    by_cases e : l' = l
    · subst e; rw [hx] at hy; cases hy; exact ⟨_, if_pos rfl, h'⟩
    · exact ⟨y, by rw [if_neg e]; exact hy, h'⟩
  · exact h.making
  · intro g l' p m hp
    obtain ⟨h1, h2⟩ := h.made g l' p m hp
    refine ⟨h1, ?_⟩
    simp only [hg]
    by_cases e : l' = l
    · subst e
      rw [hx] at h2
      cases h2
      rw [h1] at ht; cases ht
    · rw [if_neg e]; exact h2
  · exact h.alone
  · exact h.nodup
  · intro p
    rw [sentTo_append, addedTo_append, ← hc p]
    congr 1
    simp only [Adding.waitingFor, Adding.waitingIn, hg]
    by_cases e : p = x.part
    · subst e; simp [ht]
    · rw [if_neg e]
      cases e2 : s.table.get p with
      | none => rfl
      | some l' =>
        have : ¬ l' = l := by
          intro e3
          subst e3
          obtain ⟨y, hy, hp⟩ := h.tab p l' e2
          rw [hx] at hy; cases hy; exact e hp.symm
        simp [this]

theorem Adding.Inv.inv_flush {s : Adding} (h : s.Inv) (l : Nat) : (s.flush l).Inv := by
  unfold Adding.flush
  cases hx : s.lines[l]? with
  | none => exact h
  | some x =>
    dsimp only
    by_cases e : x.waiting = []
    · rw [if_pos e]; exact h
    · rw [if_neg e]
      have ht := h.owned l x hx e
      refine h.inv_set l x hx [] [.sent x.part x.waiting] ht fun p => ?_
      rw [← h.count p]
      by_cases ep : p = x.part
      · subst ep; simp [sentTo, addedTo, Adding.waitingFor, Adding.waitingIn, ht, hx]
      · have ep' : ¬ x.part = p := fun h => ep h.symm
        simp [sentTo, addedTo, ep, ep']

theorem Adding.Inv.inv_append {s : Adding} (h : s.Inv) (max l m : Nat)
    (hh : ∃ x, s.lines[l]? = some x ∧ s.table.get x.part = some l) : (s.append max l m).Inv := by
  obtain ⟨x, hx, ht⟩ := hh
  unfold Adding.append
  rw [hx]
  dsimp only
  by_cases e : (x.waiting ++ [m]).length ≥ max
  · rw [if_pos e]
    refine h.inv_set l x hx [] _ ht fun p => ?_
    rw [← h.count p]
    by_cases ep : p = x.part
    · subst ep; simp [sentTo, addedTo, Adding.waitingFor, Adding.waitingIn, ht, hx]
    · have ep' : ¬ x.part = p := fun h => ep h.symm
      simp [sentTo, addedTo, ep, ep']
  · rw [if_neg e]
    refine h.inv_set l x hx (x.waiting ++ [m]) _ ht fun p => ?_
    rw [← h.count p]
    by_cases ep : p = x.part
    · subst ep; simp [sentTo, addedTo, Adding.waitingFor, Adding.waitingIn, ht, hx]
    · have ep' : ¬ x.part = p := fun h => ep h.symm
      simp [sentTo, addedTo, ep, ep']

/-- a goroutine moves -/
theorem Adding.Inv.inv_goto {s : Adding} (h : s.Inv) (g : Nat) (a : AddAt)
    (hh : ∀ l m, a = .holding l m → ∃ x, s.lines[l]? = some x ∧ s.table.get x.part = some l)
    (hm : ∀ p m, a = .making p m → s.table.get p = none)
    (hd : ∀ l p m, a = .made l p m → s.table.get p = none ∧ s.lines[l]? = some ⟨p, []⟩)
    (ha : ∀ g' p, g' ≠ g → ((∃ m, a = .making p m) ∨ ∃ l m, a = .made l p m) → ¬ s.Busy g' p) : (s.goto g a).Inv := by
  have hb : ∀ g' p, (s.goto g a).Busy g' p → (g' ≠ g ∧ s.Busy g' p) ∨ g' = g ∧ ((∃ m, a = .making p m) ∨ ∃ l m, a = .made l p m) := by
    intro g' p hb
    by_cases e : g' = g
    · right; refine ⟨e, ?_⟩; simpa [Adding.Busy, Adding.goto, e] using hb
    · left; refine ⟨e, ?_⟩; simpa [Adding.Busy, Adding.goto, e] using hb
  constructor
  · exact h.tab
  · exact h.owned
  · intro g' l m hp
    by_cases e : g' = g
    · simp only [Adding.goto, e, if_true] at hp; exact hh l m hp
    · simp only [Adding.goto, e, if_false] at hp; exact h.hold g' l m hp
  · intro g' p m hp
    by_cases e : g' = g
    · simp only [Adding.goto, e, if_true] at hp; exact hm p m hp
    · simp only [Adding.goto, e, if_false] at hp; exact h.making g' p m hp
  · intro g' l p m hp
    by_cases e : g' = g
    · simp only [Adding.goto, e, if_true] at hp; exact hd l p m hp
    · simp only [Adding.goto, e, if_false] at hp; exact h.made g' l p m hp
  · intro g1 g2 p h1 h2
    rcases hb g1 p h1 with ⟨e1, b1⟩ | ⟨e1, b1⟩ <;> rcases hb g2 p h2 with ⟨e2, b2⟩ | ⟨e2, b2⟩
    · exact h.alone g1 g2 p b1 b2
    · exact absurd b1 (ha g1 p e1 b2)
    · exact absurd b2 (ha g2 p e2 b1)
    · rw [e1, e2]
  · exact h.nodup
  · exact h.count

/-- a call for a partition begins only while no other call is making the partition producer for it -/
def AddAct.Apart (a : AddAct) (s : Adding) : Prop :=
  match a with
  | .call _ p _ => ∀ g, ¬ s.Busy g p
  | _ => True

theorem Adding.Inv.inv_step {s s' : Adding} (h : s.Inv) (max : Nat) (a : AddAct) (ha : a.Apart s) (hs : s.step max a = some s') : s'.Inv := by
  cases a with
  | call g p m =>
    simp only [Adding.step] at hs
    cases hp : s.pos g <;> rw [hp] at hs <;> try cases hs
    cases ht : s.table.get p with
    | none =>
      refine h.inv_goto g _ (by intro l m' h'; cases h') ?_ (by intro l p' m' h'; cases h') ?_
      · intro p' m' h'; cases h'; exact ht
      · intro g' p' _ h'
        rcases h' with ⟨_, h'⟩ | ⟨_, _, h'⟩ <;> cases h'
        exact ha g'
    | some l =>
      refine h.inv_goto g _ ?_ (by intro l m' h'; cases h') (by intro l p' m' h'; cases h') ?_
      · intro l' m' h'; cases h'
        obtain ⟨x, hx, hxp⟩ := h.tab p l ht
        exact ⟨x, hx, by rw [hxp]; exact ht⟩
      · intro g' p' _ h'
        rcases h' with ⟨_, h'⟩ | ⟨_, _, h'⟩ <;> cases h'
  | make g =>
    simp only [Adding.step] at hs
    cases hp : s.pos g <;> rw [hp] at hs <;> try cases hs
    rename_i p m
    have hg : ∀ (l : Nat) x, s.lines[l]? = some x → (s.lines ++ [(⟨p, []⟩ : PartLine)])[l]? = some x := by
      intro l x hx
      rw [List.getElem?_append_left (List.getElem?_eq_some_iff.mp hx).1]; exact hx
    have hlast : (s.lines ++ [(⟨p, []⟩ : PartLine)])[s.lines.length]? = some ⟨p, []⟩ := by simp
    have hold : ∀ (l : Nat) x, (s.lines ++ [(⟨p, []⟩ : PartLine)])[l]? = some x → x.waiting ≠ [] → s.lines[l]? = some x := by
      intro l x hx hw
      by_cases e : l < s.lines.length
      · rw [List.getElem?_append_left e] at hx; exact hx
      · rw [List.getElem?_append_right (by omega)] at hx
        cases e2 : l - s.lines.length with
        | zero => rw [e2] at hx; simp at hx; subst hx; exact absurd rfl hw
        | succ n => rw [e2] at hx; simp at hx
    have h1 : Adding.Inv { s with lines := s.lines ++ [⟨p, []⟩] } := by
      constructor
      · intro q l h'; obtain ⟨x, hx, hq⟩ := h.tab q l h'; exact ⟨x, hg l x hx, hq⟩
      · intro l x hx hw; exact h.owned l x (hold l x hx hw) hw
      · intro g l m h'; obtain ⟨x, hx, hq⟩ := h.hold g l m h'; exact ⟨x, hg l x hx, hq⟩
      · exact h.making
      · intro g l p m h'; obtain ⟨h1, h2⟩ := h.made g l p m h'; exact ⟨h1, hg _ _ h2⟩
      · exact h.alone
      · exact h.nodup
      · intro q
        rw [← h.count q]
        show sentTo q s.log ++ Adding.waitingFor { s with lines := s.lines ++ [⟨p, []⟩] } q = _
        congr 1
        simp only [Adding.waitingFor, Adding.waitingIn]
        cases e2 : s.table.get q with
        | none => rfl
        | some l => obtain ⟨x, hx, _⟩ := h.tab q l e2; simp only [hg l x hx, hx]
    refine h1.inv_goto g _ (by intro l m' h'; cases h') (by intro p' m' h'; cases h') ?_ ?_
    · intro l p' m' h'; cases h'; exact ⟨h.making g p m hp, hlast⟩
    · intro g' p' hne h' hb
      rcases h' with ⟨_, h'⟩ | ⟨_, _, h'⟩ <;> cases h'
      exact hne (h.alone g' g p hb (.inl ⟨m, hp⟩))
  | store g =>
    simp only [Adding.step] at hs
    cases hp : s.pos g <;> rw [hp] at hs <;> try cases hs
    rename_i l p m
    obtain ⟨hn, hl⟩ := h.made g l p m hp
    have hne : ∀ q l', s.table.get q = some l' → q ≠ p := by
      intro q l' h' e; subst e; rw [hn] at h'; cases h'
    have hbp : ∀ g', s.Busy g' p → g' = g := fun g' hb => h.alone g' g p hb (.inr ⟨l, m, hp⟩)
    -- the goroutine first leaves its place, then the map is written
    have h1 : (s.goto g .idle).Inv := h.inv_goto g _ (by intro l m' h'; cases h') (by intro p' m' h'; cases h')
      (by intro l p' m' h'; cases h') (by intro g' p' _ h'; rcases h' with ⟨_, h'⟩ | ⟨_, _, h'⟩ <;> cases h')
    have hpos : ∀ g', g' ≠ g → (s.goto g .idle).pos g' = s.pos g' := by intro g' e; simp [Adding.goto, e]
    have hidle : (s.goto g .idle).pos g = .idle := by simp [Adding.goto]
    have h2 : Adding.Inv { s.goto g .idle with table := s.table.set p l } := by
      constructor
      · intro q l' h'
        simp only [AMap.get_set] at h'
        by_cases e : q = p
        · subst e; rw [if_pos rfl] at h'; cases h'; exact ⟨_, hl, rfl⟩
        · rw [if_neg e] at h'; exact h.tab q l' h'
      · intro l' x hx hw
        have := h.owned l' x hx hw
        simp only [AMap.get_set]
        rw [if_neg (hne _ _ this)]; exact this
      · intro g' l' m' h'
        obtain ⟨x, hx, ht⟩ := h1.hold g' l' m' h'
        have ht' : s.table.get x.part = some l' := ht
        refine ⟨x, hx, ?_⟩
        simp only [AMap.get_set]
        rw [if_neg (hne _ _ ht')]; exact ht'
      · intro g' q m' h'
        have e : g' ≠ g := by
          intro e; subst e
          have h'' : (s.goto g' .idle).pos g' = .making q m' := h'
          rw [hidle] at h''; cases h''
        have h3 : s.pos g' = .making q m' := by rw [← hpos g' e]; exact h'
        simp only [AMap.get_set]
        rw [if_neg (fun eq => e (hbp g' (by subst eq; exact .inl ⟨m', h3⟩)))]
        exact h.making g' q m' h3
      · intro g' l' q m' h'
        have e : g' ≠ g := by
          intro e; subst e
          have h'' : (s.goto g' .idle).pos g' = .made l' q m' := h'
          rw [hidle] at h''; cases h''
        have h3 : s.pos g' = .made l' q m' := by rw [← hpos g' e]; exact h'
        simp only [AMap.get_set]
        rw [if_neg (fun eq => e (hbp g' (by subst eq; exact .inr ⟨l', m', h3⟩)))]
        exact h.made g' l' q m' h3
      · exact h1.alone
      · exact AMap.nodup_keys_set _ _ _ h.nodup
      · intro q
        rw [show addedTo q (Adding.log { s.goto g .idle with table := s.table.set p l }) = addedTo q s.log from rfl, ← h.count q]
        show sentTo q s.log ++ Adding.waitingFor { s.goto g .idle with table := s.table.set p l } q = _
        congr 1
        simp only [Adding.waitingFor, AMap.get_set]
        by_cases e : q = p
        · subst e
          rw [if_pos rfl, hn]
          simp [Adding.waitingIn, Adding.goto, hl]
        · rw [if_neg e]
          rfl
    have h3 := h2.inv_goto g (.holding l m) ?_ (by intro p' m' h'; cases h') (by intro l p' m' h'; cases h')
      (by intro g' p' _ h'; rcases h' with ⟨_, h'⟩ | ⟨_, _, h'⟩ <;> cases h')
    · have e : ({ s.goto g .idle with table := s.table.set p l } : Adding).goto g (.holding l m)
          = ({ s with table := s.table.set p l } : Adding).goto g (.holding l m) := by
        simp only [Adding.goto]
        congr 1
        funext j
        by_cases e : j = g <;> simp [e]
      rw [e] at h3
      exact h3
    · intro l' m' h'
      cases h'
      refine ⟨_, hl, ?_⟩
      simp [AMap.get_set]
  | put g =>
    simp only [Adding.step] at hs
    cases hp : s.pos g <;> rw [hp] at hs <;> try cases hs
    rename_i l m
    refine (h.inv_append max l m (h.hold g l m hp)).inv_goto g _ (by intro l m' h'; cases h') (by intro p' m' h'; cases h')
      (by intro l p' m' h'; cases h') (by intro g' p' _ h'; rcases h' with ⟨_, h'⟩ | ⟨_, _, h'⟩ <;> cases h')
  | tick l =>
    cases hs
    exact h.inv_flush l

theorem Adding.Inv.inv_run {max : Nat} {as : List AddAct} {s s' : Adding} (h : s.Inv)
    (ha : ∀ pre a post, as = pre ++ a :: post → ∀ t, Adding.run max pre s = some t → a.Apart t)
    (hr : Adding.run max as s = some s') : s'.Inv := by
  induction as generalizing s with
  | nil => cases hr; exact h
  | cons a as ih =>
    simp only [Adding.run] at hr
    cases e : s.step max a with
    | none => rw [e] at hr; cases hr
    | some t =>
      rw [e] at hr
      refine ih (h.inv_step max a (ha [] a as rfl s rfl) e) ?_ hr
      intro pre b post hb u hu
      refine ha (a :: pre) b post (by rw [hb]; rfl) u ?_
      simp only [Adding.run, e]
      exact hu

theorem Adding.waitingIn_flush (s : Adding) (l l' : Nat) : (s.flush l).waitingIn l' = if l' = l then [] else s.waitingIn l' := by
  unfold Adding.flush
  cases hx : s.lines[l]? with
  | none =>
    dsimp only
    by_cases e : l' = l
    · subst e; simp [Adding.waitingIn, hx]
    · rw [if_neg e]
  | some x =>
    dsimp only
    have hlt : l < s.lines.length := (List.getElem?_eq_some_iff.mp hx).1
    by_cases ew : x.waiting = []
    · rw [if_pos ew]
      by_cases e : l' = l
      · subst e; simp [Adding.waitingIn, hx, ew]
      · rw [if_neg e]
    · rw [if_neg ew]
      simp only [Adding.waitingIn, List.getElem?_set]
      by_cases e : l' = l
      · subst e; simp [hlt]
      · have e' : ¬ l = l' := fun h => e h.symm
        simp [e, e']

theorem Adding.flush_table (s : Adding) (l : Nat) : (s.flush l).table = s.table := by
  unfold Adding.flush
  cases s.lines[l]? with
  | none => rfl
  | some x => dsimp only; split <;> rfl

theorem Adding.flush_added (s : Adding) (l p : Nat) : addedTo p (s.flush l).log = addedTo p s.log := by
  unfold Adding.flush
  cases s.lines[l]? with
  | none => rfl
  | some x => dsimp only; split <;> simp [addedTo]

theorem Adding.flushes (ls : List Nat) (s : Adding) (h : s.Inv) :
    (ls.foldl (fun s l => s.flush l) s).Inv ∧ (ls.foldl (fun s l => s.flush l) s).table = s.table
      ∧ (∀ l, (ls.foldl (fun s l => s.flush l) s).waitingIn l = if l ∈ ls then [] else s.waitingIn l)
      ∧ ∀ p, addedTo p (ls.foldl (fun s l => s.flush l) s).log = addedTo p s.log := by
  induction ls generalizing s with
  | nil => exact ⟨h, rfl, fun l => by simp, fun _ => rfl⟩
  | cons l ls ih =>
    obtain ⟨h1, h2, h3, h4⟩ := ih (s.flush l) (h.inv_flush l)
    refine ⟨h1, h2.trans (s.flush_table l), fun l' => ?_, fun p => (h4 p).trans (s.flush_added l p)⟩
    rw [List.foldl_cons, h3 l', s.waitingIn_flush]
    by_cases e : l' = l
    · subst e; simp
    · by_cases e2 : l' ∈ ls <;> simp [e, e2]

/-- **C135.**  Any number of goroutines add keyed messages, flush timers fire at any time, and then the producer is closed.
If no call begins while another one is still making the partition producer for the same partition, the messages sent to each
partition are exactly those for which `AddMessage` returned nil, each once, in the order of the returns.

`_partial`: `getSimpleProducer` takes no lock, so the condition is the caller's business; without it a message is not sent
(`C135_violated_first_messages`). -/
theorem C135_all_sent_partial (max : Nat) (as : List AddAct) (s : Adding)
    (hr : Adding.run max as {} = some s)
    (hapart : ∀ pre g p m post, as = pre ++ .call g p m :: post → ∀ t, Adding.run max pre {} = some t → ∀ g', ¬ t.Busy g' p) :
    ∀ p, sentTo p s.close.log = addedTo p s.close.log ∧ addedTo p s.close.log = addedTo p s.log := by
  have hi : s.Inv := Adding.inv_start.inv_run (by
    intro pre a post hb t ht
    cases a with
    | call g p m => exact hapart pre g p m post hb t ht
    | _ => trivial) hr
  intro p
  obtain ⟨h1, h2, h3, h4⟩ := Adding.flushes (s.table.map Prod.snd) s hi
  refine ⟨?_, h4 p⟩
  have hc : sentTo p s.close.log ++ s.close.waitingFor p = addedTo p s.close.log := h1.count p
  have hw : s.close.waitingFor p = [] := by
    have e1 : s.close.table = s.table := h2
    unfold Adding.waitingFor
    rw [e1]
    cases e : s.table.get p with
    | none => rfl
    | some l =>
      have hm : l ∈ s.table.map Prod.snd := List.mem_map.mpr ⟨(p, l), AMap.mem_of_get_eq_some _ _ _ e, rfl⟩
      have := h3 l
      rw [if_pos hm] at this
      exact this
  rw [hw, List.append_nil] at hc
  exact hc

/-- two goroutines, two partitions, their calls overlapping -/
def overlapping : List AddAct :=
  [.call 0 3 10, .make 0, .call 1 4 20, .store 0, .make 1, .call 2 3 11, .put 2, .store 1, .put 0, .tick 0, .put 1, .call 0 4 21, .put 0]

example : ((Adding.run 3 overlapping {}).map fun s => s.close.log)
    = some [.added 3 11, .added 3 10, .sent 3 [11, 10], .added 4 20, .added 4 21, .sent 4 [20, 21]] := by decide

/-- the hypothesis holds for calls which overlap on different partitions -/
example : ∀ pre g p m post, ([.call 0 3 10, .call 1 4 20, .make 0, .make 1, .store 1, .store 0, .put 1, .put 0] : List AddAct)
      = pre ++ .call g p m :: post → ∀ t, Adding.run 3 pre {} = some t → ∀ g', ¬ t.Busy g' p := by
  intro pre g p m post h t ht g' hb
  rcases pre with _ | ⟨a, _ | ⟨b, pre⟩⟩
  · cases ht
    rcases hb with ⟨_, hb⟩ | ⟨_, _, hb⟩ <;> cases hb
  · simp only [List.cons_append, List.nil_append, List.cons.injEq] at h
    obtain ⟨rfl, h, _⟩ := h
    cases h
    cases ht
    by_cases e : g' = 0
    · rcases hb with ⟨_, hb⟩ | ⟨_, _, hb⟩ <;> simp [Adding.goto, e, AMap.get] at hb
    · rcases hb with ⟨_, hb⟩ | ⟨_, _, hb⟩ <;> simp [Adding.goto, e] at hb
  · obtain ⟨_, h⟩ := List.cons_eq_cons.mp h
    obtain ⟨_, h⟩ := List.cons_eq_cons.mp h
    have hm : AddAct.call g p m ∈ ([.make 0, .make 1, .store 1, .store 0, .put 1, .put 0] : List AddAct) := by rw [h]; simp
    simp at hm

/-- **C135, negation.**  Two goroutines add the first message for a partition at the same time: both find no partition
producer, both make one, and the second replaces the first in the map.  Both calls return nil; `Close` sends only one of the two
messages. -/
theorem C135_violated_first_messages (max : Nat) (hmax : 2 ≤ max) :
    ∃ s, Adding.run max [.call 0 3 10, .call 1 3 11, .make 0, .make 1, .store 0, .store 1, .put 0, .put 1] {} = some s
      ∧ (∀ g, s.pos g = .idle) ∧ addedTo 3 s.close.log = [10, 11] ∧ sentTo 3 s.close.log = [11] := by
  have h : ¬ max ≤ 1 := by omega
  refine ⟨_, by simp [Adding.run, Adding.step, Adding.goto, Adding.append, AMap.get, AMap.set, h]; rfl, ?_, ?_, ?_⟩
  · intro g
    by_cases h0 : g = 0 <;> by_cases h1 : g = 1 <;> simp [h0, h1]
  · simp [Adding.close, Adding.flush, addedTo]
  · simp [Adding.close, Adding.flush, sentTo]

end Healer
