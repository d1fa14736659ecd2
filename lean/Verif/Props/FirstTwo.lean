import Verif.Props.Keyed

/-! C135: whenever two goroutines add the first messages of a partition at the same time, one of them is lost. -/

namespace Healer

/-- the partition producer stored or about to be stored for a partition is one of that partition -/
structure Adding.Sorted (s : Adding) : Prop where
  table : ∀ e ∈ s.table, (s.lines[e.2]?).map PartLine.part = some e.1
  made : ∀ g l p m, s.pos g = .made l p m → (s.lines[l]?).map PartLine.part = some p

theorem amap_mem_set {κ υ : Type} [DecidableEq κ] (k : κ) (v : υ) : ∀ (m : AMap κ υ) (e : κ × υ), e ∈ m.set k v → e = (k, v) ∨ e ∈ m
  | [], e, h => by simpa [AMap.set] using h
  | (a, b) :: m, e, h => by
    simp only [AMap.set] at h
    split at h
    · rcases List.mem_cons.1 h with h | h
      · exact .inl h
      · exact .inr (.tail _ h)
    · rcases List.mem_cons.1 h with h | h
      · exact .inr (h ▸ .head _)
      · rcases amap_mem_set k v m e h with h | h
        · exact .inl h
        · exact .inr (.tail _ h)

theorem set_part {ls : List PartLine} {l : Nat} {x : PartLine} (hx : ls[l]? = some x) (w : List Nat) (l' : Nat) :
    ((ls.set l { x with waiting := w })[l']?).map PartLine.part = (ls[l']?).map PartLine.part := by
  have hl : l < ls.length := (List.getElem?_eq_some_iff.1 hx).1
  by_cases h : l = l'
  · subst h
    simp [List.getElem?_set_self hl, hx]
  · rw [List.getElem?_set_ne h]

theorem Adding.flush_part (l l' : Nat) (s : Adding) :
    ((s.flush l).lines[l']?).map PartLine.part = (s.lines[l']?).map PartLine.part := by
  unfold Adding.flush
  cases hx : s.lines[l]? with
  | none => rfl
  | some x =>
    simp only
    split
    · rfl
    · exact set_part hx [] l'

theorem Adding.append_part (max l m l' : Nat) (s : Adding) :
    ((s.append max l m).lines[l']?).map PartLine.part = (s.lines[l']?).map PartLine.part := by
  unfold Adding.append
  cases hx : s.lines[l]? with
  | none => rfl
  | some x =>
    simp only
    split <;> exact set_part hx _ l'

theorem Adding.flush_rest (l : Nat) (s : Adding) : (s.flush l).table = s.table ∧ (s.flush l).pos = s.pos := by
  unfold Adding.flush
  repeat' split
  all_goals exact ⟨rfl, rfl⟩

theorem Adding.append_rest (max l m : Nat) (s : Adding) : (s.append max l m).table = s.table ∧ (s.append max l m).pos = s.pos := by
  unfold Adding.append
  repeat' split
  all_goals exact ⟨rfl, rfl⟩

theorem Adding.Sorted.goto {s : Adding} (h : s.Sorted) (g : Nat) (a : AddAt)
    (ha : ∀ l p m, a = .made l p m → (s.lines[l]?).map PartLine.part = some p) : (s.goto g a).Sorted := by
  refine ⟨h.table, fun g' l p m hp => ?_⟩
  by_cases e : g' = g
  · simp only [Adding.goto, e, if_true] at hp
    exact ha l p m hp
  · simp only [Adding.goto, e, if_false] at hp
    exact h.made g' l p m hp

theorem Adding.Sorted.step {s s' : Adding} (h : s.Sorted) (max : Nat) (a : AddAct) (hs : s.step max a = some s') : s'.Sorted := by
  cases a with
  | call g p m =>
    simp only [Adding.step] at hs
    split at hs <;> cases hs
    refine h.goto g _ ?_
    intro l p m
    split <;> rintro ⟨⟩
  | make g =>
    simp only [Adding.step] at hs
    split at hs <;> cases hs
    rename_i p m hp
    have grow : ∀ (l q : Nat), (s.lines[l]?).map PartLine.part = some q → ((s.lines ++ [{ part := p }])[l]?).map PartLine.part = some q := by
      intro l q hq
      cases hx : s.lines[l]? with
      | none => rw [hx] at hq; cases hq
      | some x =>
        rw [List.getElem?_append_left (List.getElem?_eq_some_iff.1 hx).1]
        exact hq
    refine Adding.Sorted.goto (s := { s with lines := s.lines ++ [{ part := p }] })
      ⟨fun e he => grow _ _ (h.table e he), fun g l p m hp => grow _ _ (h.made g l p m hp)⟩ g _ ?_
    rintro l p m ⟨⟩
    simp
  | store g =>
    simp only [Adding.step] at hs
    split at hs <;> cases hs
    rename_i l p m hp
    refine Adding.Sorted.goto (s := { s with table := s.table.set p l }) ⟨fun e he => ?_, h.made⟩ g (.holding l m)
      (by rintro _ _ _ ⟨⟩)
    rcases amap_mem_set p l s.table e he with rfl | he
    · exact h.made g l p m hp
    · exact h.table e he
  | put g =>
    simp only [Adding.step] at hs
    split at hs <;> cases hs
    rename_i l m hp
    refine Adding.Sorted.goto ⟨fun e he => ?_, fun g l p m hp => ?_⟩ g _ (by rintro _ _ _ ⟨⟩)
    · rw [(Adding.append_rest max l m s).1] at he
      rw [Adding.append_part]
      exact h.table e he
    · rw [(Adding.append_rest ..).2] at hp
      rw [Adding.append_part]
      exact h.made _ _ _ _ hp
  | tick l =>
    simp only [Adding.step, Option.some.injEq] at hs
    subst hs
    refine ⟨fun e he => ?_, fun g l p m hp => ?_⟩
    · rw [(Adding.flush_rest l s).1] at he
      rw [Adding.flush_part]
      exact h.table e he
    · rw [(Adding.flush_rest _ s).2] at hp
      rw [Adding.flush_part]
      exact h.made _ _ _ _ hp

theorem Adding.Sorted.run (max : Nat) : ∀ (as : List AddAct) {s s' : Adding}, s.Sorted → Adding.run max as s = some s' → s'.Sorted
  | [], s, s', h, hr => by cases hr; exact h
  | a :: as, s, s', h, hr => by
    simp only [Adding.run] at hr
    split at hr
    · rename_i s1 h1
      exact Adding.Sorted.run max as (h.step max a h1) hr
    · cases hr

theorem Adding.sorted_start : Adding.Sorted {} := ⟨by simp, by intro _ _ _ _ h; cases h⟩

/-- closing sends what waits for the partition in the producer `t`, if that is the only one of the partition in the map -/
theorem flushes_sent (p t : Nat) : ∀ (ls : List Nat) (s : Adding) (w : List Nat),
    (∀ l ∈ ls, l ≠ t → (s.lines[l]?).map PartLine.part ≠ some p) → s.lines[t]? = some ⟨p, w⟩ →
    sentTo p (ls.foldl (fun s l => s.flush l) s).log = sentTo p s.log ++ (if t ∈ ls then w else [])
      ∧ addedTo p (ls.foldl (fun s l => s.flush l) s).log = addedTo p s.log
  | [], s, w, _, _ => by simp
  | l :: ls, s, w, hp, ht => by
    have ih := flushes_sent p t ls (s.flush l)
    have hp' : ∀ l' ∈ ls, l' ≠ t → ((s.flush l).lines[l']?).map PartLine.part ≠ some p := by
      intro l' hl' hne
      rw [Adding.flush_part]
      exact hp l' (.tail _ hl') hne
    simp only [List.foldl_cons]
    by_cases hl : l = t
    · subst hl
      by_cases hw : w = []
      · subst hw
        have : s.flush l = s := by simp [Adding.flush, ht]
        rw [this] at ih hp' ⊢
        simpa using ih [] hp' ht
      · have hf : s.flush l = { s with lines := s.lines.set l ⟨p, []⟩, log := s.log ++ [.sent p w] } := by
          simp [Adding.flush, ht, hw]
        have ht' : (s.flush l).lines[l]? = some ⟨p, []⟩ := by
          rw [hf]
          exact List.getElem?_set_self (List.getElem?_eq_some_iff.1 ht).1
        have h := ih [] hp' ht'
        rw [h.1, h.2, hf]
        simp [sentTo, addedTo]
    · have hx := hp l (.head _) hl
      have hlog : sentTo p (s.flush l).log = sentTo p s.log ∧ addedTo p (s.flush l).log = addedTo p s.log
          ∧ (s.flush l).lines[t]? = s.lines[t]? := by
        unfold Adding.flush
        cases hs : s.lines[l]? with
        | none => simp
        | some x =>
          rw [hs] at hx
          simp only [Option.map_some, ne_eq, Option.some.injEq] at hx
          simp only
          split
          · simp
          · simp [sentTo, addedTo, hx, List.getElem?_set_ne hl]
      have h := ih w hp' (hlog.2.2.trans ht)
      rw [h.1, h.2, hlog.1, hlog.2.1]
      have : t ≠ l := fun h => hl h.symm
      simp [this]

theorem amap_set_set {κ υ : Type} [DecidableEq κ] (k : κ) (v v' : υ) : ∀ m : AMap κ υ, (m.set k v).set k v' = m.set k v'
  | [] => by simp [AMap.set]
  | (a, b) :: m => by
    by_cases h : a = k
    · simp [AMap.set, h]
    · simp [AMap.set, h, amap_set_set k v v' m]

theorem amap_mem_key {κ υ : Type} [DecidableEq κ] {m : AMap κ υ} {k : κ} (h : m.get k = none) {e : κ × υ} (he : e ∈ m) : e.1 ≠ k := by
  intro hk
  have := List.lookup_eq_none_iff.1 h e he
  simp [hk] at this

theorem amap_set_mem {κ υ : Type} [DecidableEq κ] (k : κ) (v : υ) : ∀ m : AMap κ υ, (k, v) ∈ m.set k v
  | [] => by simp [AMap.set]
  | (a, b) :: m => by
    by_cases h : a = k
    · simp [AMap.set, h]
    · simp [AMap.set, h, amap_set_mem k v m]

/-- C135 does not hold for any partition, any two goroutines and any history: whenever nothing was added for the partition
so far and the two look up the partition's producer before either has stored one, both calls return nil, and when the
producer is closed the message of the first has not been sent. -/
theorem C135_violated_every_first_messages (max : Nat) (hmax : 2 ≤ max) (before : List AddAct) (s : Adding)
    (hs : Adding.run max before {} = some s) (p : Nat) (hp : s.table.get p = none) (g g' : Nat) (hg : g ≠ g')
    (hi : s.pos g = .idle) (hi' : s.pos g' = .idle) (m m' : Nat) :
    ∃ s', Adding.run max [.call g p m, .call g' p m', .make g, .make g', .store g, .store g', .put g, .put g'] s = some s'
      ∧ s'.pos = s.pos ∧ addedTo p s'.close.log = addedTo p s.log ++ [m, m'] ∧ sentTo p s'.close.log = sentTo p s.log ++ [m'] := by
  have hso : s.Sorted := Adding.sorted_start.run max before hs
  have hg' : ¬ g' = g := fun h => hg h.symm
  have h1 : ¬ max ≤ 1 := by omega
  have hrun : Adding.run max [.call g p m, .call g' p m', .make g, .make g', .store g, .store g', .put g, .put g'] s
      = some { lines := s.lines ++ [⟨p, [m]⟩, ⟨p, [m']⟩], table := s.table.set p (s.lines.length + 1), pos := s.pos,
               log := s.log ++ [.added p m, .added p m'] } := by
    simp [Adding.run, Adding.step, Adding.goto, Adding.append, hp, hi, hi', hg, hg', h1, amap_set_set]
    funext j
    by_cases e : j = g' <;> by_cases e' : j = g <;> simp [e, e', hi, hi']
  refine ⟨_, hrun, rfl, ?_⟩
  have h := flushes_sent p (s.lines.length + 1) ((s.table.set p (s.lines.length + 1)).map Prod.snd)
    { lines := s.lines ++ [⟨p, [m]⟩, ⟨p, [m']⟩], table := s.table.set p (s.lines.length + 1), pos := s.pos,
      log := s.log ++ [.added p m, .added p m'] } [m'] ?_ ?_
  · rw [if_pos (List.mem_map.2 ⟨_, amap_set_mem p _ s.table, rfl⟩)] at h
    refine ⟨h.2.trans ?_, h.1.trans ?_⟩
    · simp [addedTo]
    · simp [sentTo]
  · intro l hl hne
    obtain ⟨e, he, rfl⟩ := List.mem_map.1 hl
    rcases amap_mem_set p _ s.table e he with rfl | he
    · exact absurd rfl hne
    · have ht := hso.table e he
      have hlt : e.2 < s.lines.length := by
        cases hx : s.lines[e.2]? with
        | none => rw [hx] at ht; cases ht
        | some x => exact (List.getElem?_eq_some_iff.1 hx).1
      simp only
      rw [List.getElem?_append_left hlt, ht]
      simpa using amap_mem_key hp he
  · simp only
    rw [List.getElem?_append_right (by omega)]
    simp

/-- two goroutines which have already added messages for another partition -/
example : ∃ s, Adding.run 5 [.call 7 1 100, .make 7, .store 7, .put 7, .call 9 1 101, .put 9] {} = some s ∧ s.table.get 2 = none
    ∧ s.pos 7 = .idle ∧ s.pos 9 = .idle := ⟨_, rfl, rfl, rfl, rfl⟩

end Healer
