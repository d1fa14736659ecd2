/-!
# Go maps and sorting

A Go map is an association list without duplicate keys; `range` over a map visits the entries in
an order the language leaves open, so every model function that ranges over a map takes the order
as an argument (any permutation).  `sort.Sort` is `List.mergeSort`.
-/

namespace Healer

/-- Go map as an association list. -/
abbrev AMap (κ υ : Type) := List (κ × υ)

namespace AMap

variable {κ υ : Type} [DecidableEq κ]

/-- `m[k]`, `none` if absent -/
def get (m : AMap κ υ) (k : κ) : Option υ := List.lookup k m

/-- `m[k] = v` -/
def set : AMap κ υ → κ → υ → AMap κ υ
  | [], k, v => [(k, v)]
  | (k', v') :: m, k, v => if k' = k then (k, v) :: m else (k', v') :: set m k v

/-- `delete(m, k)` -/
def del (m : AMap κ υ) (k : κ) : AMap κ υ := m.filter fun e => e.1 ≠ k

/-- keys of the map -/
def keys (m : AMap κ υ) : List κ := m.map Prod.fst

theorem get_nil (k : κ) : get ([] : AMap κ υ) k = none := rfl

theorem get_cons (k k' : κ) (v : υ) (m : AMap κ υ) :
    get ((k', v) :: m) k = if k = k' then some v else get m k := by
  unfold get
  rw [List.lookup_cons]
  by_cases h : k = k'
  · simp [h]
  · have : (k == k') = false := by simp [h]
    simp [h, this]

theorem get_set (m : AMap κ υ) (k k' : κ) (v : υ) :
    get (set m k v) k' = if k' = k then some v else get m k' := by
  induction m with
  | nil => simp [set, get_cons, get_nil]
  | cons e m ih =>
    obtain ⟨a, b⟩ := e
    simp only [set]
    by_cases h : a = k
    · subst h
      rw [if_pos rfl]
      simp only [get_cons]
      by_cases h2 : k' = a <;> simp [h2]
    · rw [if_neg h]
      simp only [get_cons, ih]
      by_cases h2 : k' = a
      · subst h2; simp [h]
      · simp [h2]

theorem keys_set (m : AMap κ υ) (k : κ) (v : υ) :
    keys (set m k v) = if k ∈ keys m then keys m else keys m ++ [k] := by
  induction m with
  | nil => simp [set, keys]
  | cons e m ih =>
    obtain ⟨a, b⟩ := e
    simp only [set]
    by_cases h : a = k
    · subst h; simp [keys]
    · rw [if_neg h]
      have hne : ¬ k = a := fun x => h x.symm
      simp only [keys, List.map_cons, List.mem_cons, hne, false_or] at ih ⊢
      rw [ih]
      by_cases hm : k ∈ List.map Prod.fst m <;> simp [hm]

theorem nodup_keys_set (m : AMap κ υ) (k : κ) (v : υ) (h : (keys m).Nodup) :
    (keys (set m k v)).Nodup := by
  rw [keys_set]
  split
  · exact h
  · rename_i hk
    rw [List.nodup_append]
    refine ⟨h, by simp, ?_⟩
    intro a ha b hb
    simp at hb; subst hb
    intro hc; subst hc; exact hk ha

theorem get_eq_some_of_mem (m : AMap κ υ) (h : (keys m).Nodup) (k : κ) (v : υ) (hm : (k, v) ∈ m) :
    get m k = some v := by
  induction m with
  | nil => simp at hm
  | cons e m ih =>
    obtain ⟨a, b⟩ := e
    simp only [keys, List.map_cons, List.nodup_cons] at h
    rw [get_cons]
    rcases List.mem_cons.1 hm with h1 | h1
    · cases h1; simp
    · have hne : k ≠ a := by
        intro hc; subst hc
        exact h.1 (List.mem_map.2 ⟨(k, v), h1, rfl⟩)
      rw [if_neg hne]
      exact ih h.2 h1

theorem mem_of_get_eq_some (m : AMap κ υ) (k : κ) (v : υ) (h : get m k = some v) : (k, v) ∈ m := by
  induction m with
  | nil => simp [get] at h
  | cons e m ih =>
    obtain ⟨a, b⟩ := e
    rw [get_cons] at h
    split at h
    · rename_i hk; cases h; simp [hk]
    · exact List.mem_cons_of_mem _ (ih h)

theorem get_eq_none_iff (m : AMap κ υ) (k : κ) : get m k = none ↔ k ∉ keys m := by
  induction m with
  | nil => simp [get, keys]
  | cons e m ih =>
    obtain ⟨a, b⟩ := e
    rw [get_cons]
    simp only [keys, List.map_cons, List.mem_cons, not_or] at ih ⊢
    split
    · rename_i h; simp [h]
    · rename_i h; simp [h, ih]

/-- Looking a key up does not depend on the iteration order. -/
theorem get_perm (m m' : AMap κ υ) (hp : m.Perm m') (h : (keys m).Nodup) (k : κ) :
    get m k = get m' k := by
  have h' : (keys m').Nodup := (hp.map Prod.fst).nodup_iff.1 h
  cases hg : get m k with
  | none =>
    symm
    rw [get_eq_none_iff] at hg ⊢
    intro hc; exact hg ((hp.map Prod.fst).mem_iff.2 hc)
  | some v =>
    symm
    exact get_eq_some_of_mem m' h' k v (hp.mem_iff.1 (mem_of_get_eq_some m k v hg))

end AMap

end Healer
