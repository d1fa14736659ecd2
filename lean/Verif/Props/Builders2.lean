import Verif.Props.Builders
import Mathlib.Data.List.Nodup

/-!
# C76: adding settings
-/

namespace Healer

/-- A setting to be added. -/
structure SettingAdd where
  rt : UInt8
  rn : Bytes
  name : Bytes
  value : Bytes
deriving DecidableEq, Repr

/-- the value added first -/
def firstAdded (adds : List SettingAdd) (rt : UInt8) (rn name : Bytes) : Option Bytes :=
  (adds.find? fun a => a.rt = rt ∧ a.rn = rn ∧ a.name = name).map SettingAdd.value

theorem firstAdded_append (adds : List SettingAdd) (a : SettingAdd) (rt : UInt8) (rn name : Bytes) :
    firstAdded (adds ++ [a]) rt rn name =
      (firstAdded adds rt rn name).or (if a.rt = rt ∧ a.rn = rn ∧ a.name = name then some a.value else none) := by
  unfold firstAdded
  rw [List.find?_append]
  cases adds.find? fun a => decide (a.rt = rt ∧ a.rn = rn ∧ a.name = name) with
  | some x => rfl
  | none =>
    by_cases h : a.rt = rt ∧ a.rn = rn ∧ a.name = name
    · simp [h]
    · simp only [Option.none_or, Option.map_none, if_neg h]
      simp [List.find?_cons, h]

/-! ## Alter configs -/

/-- The setting is in the request. -/
def AlterConfigsRequest.has (r : AlterConfigsRequest) (rt : UInt8) (rn name value : Bytes) : Prop :=
  ∃ res ∈ r.resources, res.resourceType = rt ∧ res.resourceName = rn ∧ ∃ e ∈ res.configEntries, e.1 = name ∧ e.2 = value

/-- Every resource is listed once, and every setting once for its resource. -/
structure AlterConfigsRequest.Once (r : AlterConfigsRequest) : Prop where
  resources : (r.resources.map fun res => (res.resourceType, res.resourceName)).Nodup
  settings : ∀ res ∈ r.resources, (res.configEntries.map fun e => e.1).Nodup

/-- adding one setting after the other; a refused one is dropped -/
def AlterConfigsRequest.addAll (r : AlterConfigsRequest) (adds : List SettingAdd) : AlterConfigsRequest :=
  adds.foldl (fun r a => match r.addConfig a.rt a.rn a.name a.value with | .ok r' => r' | .error _ => r) r

/-- the resource after the addition, whether it is refused or not -/
def AlterConfigsResource.added (name value : Bytes) (res : AlterConfigsResource) : AlterConfigsResource :=
  if ∃ e ∈ res.configEntries, e.1 = name then res else { res with configEntries := res.configEntries ++ [(name, value)] }

theorem AlterConfigsResource.add_cases (name value : Bytes) (res : AlterConfigsResource) (hnd : (res.configEntries.map fun e => e.1).Nodup) :
    (res.add name value = .ok (res.added name value) ∧ (∀ e ∈ res.configEntries, e.1 = name → e.2 = value)) ∨
    ((∃ x, res.add name value = .error x) ∧ ∃ e ∈ res.configEntries, e.1 = name ∧ e.2 ≠ value) := by
  unfold AlterConfigsResource.add AlterConfigsResource.added
  cases hf : res.configEntries.find? (fun e => e.1 == name) with
  | none =>
    left
    have hno : ¬ ∃ e ∈ res.configEntries, e.1 = name := by
      rintro ⟨e, he, hn⟩
      have := List.find?_eq_none.1 hf e he
      simp [hn] at this
    simp only [if_neg hno]
    exact ⟨trivial, fun e he hn => absurd ⟨e, he, hn⟩ hno⟩
  | some c =>
    have hc := List.mem_of_find?_eq_some hf
    have hn : c.1 = name := by simpa using List.find?_some hf
    have huniq : ∀ e ∈ res.configEntries, e.1 = name → e = c := by
      intro e he hne
      exact List.inj_on_of_nodup_map hnd he hc (hne.trans hn.symm)
    simp only
    by_cases hv : c.2 = value
    · left
      rw [if_neg (by simpa using hv), if_pos ⟨c, hc, hn⟩]
      exact ⟨rfl, fun e he hne => by rw [huniq e he hne]; exact hv⟩
    · right
      rw [if_pos hv]
      exact ⟨⟨_, rfl⟩, c, hc, hn, hv⟩

/-- the resources after the addition, whether it is refused or not -/
theorem addAlterConfig_cases (rt : UInt8) (rn name value : Bytes) : ∀ (l : List AlterConfigsResource), (∀ res ∈ l, (res.configEntries.map fun e => e.1).Nodup) →
    (addAlterConfig rt rn name value l =
        .ok (inFirst (fun res => (res.resourceType, res.resourceName) == (rt, rn)) (AlterConfigsResource.added name value) ⟨rt, rn, [(name, value)]⟩ l)) ∨
    ((∃ x, addAlterConfig rt rn name value l = .error x) ∧ ∃ res ∈ l, res.resourceType = rt ∧ res.resourceName = rn ∧
      ∃ e ∈ res.configEntries, e.1 = name ∧ e.2 ≠ value)
  | [], _ => .inl rfl
  | res :: rest, hnd => by
    unfold addAlterConfig inFirst
    by_cases h : res.resourceType = rt ∧ res.resourceName = rn
    · have hb : ((res.resourceType, res.resourceName) == (rt, rn)) = true := by simp [h]
      rw [if_pos h, if_pos hb]
      rcases res.add_cases name value (hnd res (.head _)) with ⟨h1, _⟩ | ⟨⟨x, h1⟩, h2⟩
      · left; rw [h1]; rfl
      · right; exact ⟨⟨x, by rw [h1]; rfl⟩, res, .head _, h.1, h.2, h2⟩
    · have hb : ¬ ((res.resourceType, res.resourceName) == (rt, rn)) = true := by simpa using h
      rw [if_neg h, if_neg hb]
      rcases addAlterConfig_cases rt rn name value rest (fun x hx => hnd x (.tail _ hx)) with h1 | ⟨⟨x, h1⟩, y, hy, h2⟩
      · left; rw [h1]; rfl
      · right; exact ⟨⟨x, by rw [h1]; rfl⟩, y, .tail _ hy, h2⟩

theorem AlterConfigsRequest.has_unique {r : AlterConfigsRequest} (h : r.Once) {rt : UInt8} {rn name v w : Bytes} (h1 : r.has rt rn name v) (h2 : r.has rt rn name w) : v = w := by
  obtain ⟨x, hx, hx1, hx2, e, he, hen, hev⟩ := h1
  obtain ⟨y, hy, hy1, hy2, f, hf, hfn, hfv⟩ := h2
  have hxy : x = y := List.inj_on_of_nodup_map h.resources hx hy (by simp [hx1, hx2, hy1, hy2])
  subst hxy
  have hef : e = f := List.inj_on_of_nodup_map (h.settings x hx) he hf (hen.trans hfn.symm)
  rw [← hev, ← hfv, hef]

theorem AlterConfigsResource.mem_added {name value : Bytes} {res : AlterConfigsResource} {n v : Bytes} :
    (∃ e ∈ (res.added name value).configEntries, e.1 = n ∧ e.2 = v) ↔
      (∃ e ∈ res.configEntries, e.1 = n ∧ e.2 = v) ∨ (n = name ∧ v = value ∧ ¬ ∃ e ∈ res.configEntries, e.1 = name) := by
  unfold AlterConfigsResource.added
  split
  · rename_i hex
    constructor
    · exact .inl
    · rintro (h | ⟨_, _, h⟩)
      · exact h
      · exact absurd hex h
  · rename_i hno
    simp only [List.mem_append, List.mem_singleton]
    constructor
    · rintro ⟨e, he | rfl, h1, h2⟩
      · exact .inl ⟨e, he, h1, h2⟩
      · exact .inr ⟨h1.symm, h2.symm, hno⟩
    · rintro (⟨e, he, h1, h2⟩ | ⟨rfl, rfl, _⟩)
      · exact ⟨e, .inl he, h1, h2⟩
      · exact ⟨_, .inr rfl, rfl, rfl⟩

/-- one addition -/
theorem AlterConfigsRequest.add_step (r : AlterConfigsRequest) (h : r.Once) (a : SettingAdd) :
    (∃ r', r.addConfig a.rt a.rn a.name a.value = .ok r' ∧ r'.Once ∧ (∀ w, r.has a.rt a.rn a.name w → w = a.value) ∧
      ∀ rt rn n v, r'.has rt rn n v ↔ r.has rt rn n v ∨
        ((rt = a.rt ∧ rn = a.rn ∧ n = a.name ∧ v = a.value) ∧ ¬ ∃ w, r.has a.rt a.rn a.name w)) ∨
    ((∃ x, r.addConfig a.rt a.rn a.name a.value = .error x) ∧ ∃ w, r.has a.rt a.rn a.name w ∧ w ≠ a.value) := by
  by_cases hbad : ∃ w, r.has a.rt a.rn a.name w ∧ w ≠ a.value
  · right
    refine ⟨?_, hbad⟩
    rcases addAlterConfig_cases a.rt a.rn a.name a.value r.resources h.settings with hok | ⟨⟨x, hx⟩, _⟩
    · exfalso
      -- the loop cannot have succeeded: the resource exists and has another value
      obtain ⟨w, ⟨res, hres, h1, h2, e, he, hn, hv⟩, hw⟩ := hbad
      have : ∀ l : List AlterConfigsResource, (l.map fun res => (res.resourceType, res.resourceName)).Nodup → (∀ y ∈ l, y ∈ r.resources) → res ∈ l →
          ∃ x, addAlterConfig a.rt a.rn a.name a.value l = .error x := by
        intro l
        induction l with
        | nil => intro _ _ hm; cases hm
        | cons y ys ih =>
          intro hnd hsub hm
          unfold addAlterConfig
          simp only [List.map_cons, List.nodup_cons] at hnd
          by_cases hy : y.resourceType = a.rt ∧ y.resourceName = a.rn
          · have hyr : y = res := List.inj_on_of_nodup_map h.resources (hsub y (.head _)) hres (by simp [hy.1, hy.2, h1, h2])
            subst hyr
            rw [if_pos hy]
            rcases y.add_cases a.name a.value (h.settings y hres) with ⟨_, hall⟩ | ⟨⟨x, hx⟩, _⟩
            · exact absurd (hall e he hn) (by rw [hv]; exact hw)
            · exact ⟨x, by rw [hx]; rfl⟩
          · rw [if_neg hy]
            rcases List.mem_cons.1 hm with rfl | hm
            · exact absurd ⟨h1, h2⟩ hy
            · obtain ⟨x, hx⟩ := ih hnd.2 (fun z hz => hsub z (.tail _ hz)) hm
              exact ⟨x, by rw [hx]; rfl⟩
      obtain ⟨x, hx⟩ := this r.resources h.resources (fun _ hy => hy) hres
      rw [hok] at hx
      cases hx
    · exact ⟨x, by unfold AlterConfigsRequest.addConfig; rw [hx]; rfl⟩
  · left
    rcases addAlterConfig_cases a.rt a.rn a.name a.value r.resources h.settings with hok | ⟨_, res, hres, h1, h2, e, he, hn, hv⟩
    · have hkey : ∀ x : AlterConfigsResource, ((x.added a.name a.value).resourceType, (x.added a.name a.value).resourceName) = (x.resourceType, x.resourceName) := by
        intro x; unfold AlterConfigsResource.added; split <;> rfl
      have mem := inFirst_mem (fun res : AlterConfigsResource => (res.resourceType, res.resourceName)) (a.rt, a.rn) (AlterConfigsResource.added a.name a.value)
        ⟨a.rt, a.rn, [(a.name, a.value)]⟩ r.resources h.resources
      refine ⟨_, by unfold AlterConfigsRequest.addConfig; rw [hok]; rfl, ⟨?_, ?_⟩, ?_, ?_⟩
      · exact inFirst_nodup (fun res : AlterConfigsResource => (res.resourceType, res.resourceName)) (a.rt, a.rn) (AlterConfigsResource.added a.name a.value)
          ⟨a.rt, a.rn, [(a.name, a.value)]⟩ hkey rfl r.resources h.resources
      · intro res hres
        rcases (mem res).1 hres with ⟨hm, _⟩ | ⟨y, hy, _, rfl⟩ | ⟨_, rfl⟩
        · exact h.settings res hm
        · unfold AlterConfigsResource.added
          split
          · exact h.settings y hy
          · rename_i hno
            simp only [List.map_append, List.map_cons, List.map_nil]
            rw [List.nodup_append]
            refine ⟨h.settings y hy, by simp, ?_⟩
            intro u hu w hw
            simp only [List.mem_singleton] at hw
            subst hw
            rintro rfl
            obtain ⟨e, he, hn⟩ := List.mem_map.1 hu
            exact hno ⟨e, he, hn⟩
        · simp
      · intro w hw
        exact Classical.byContradiction fun hne => hbad ⟨w, hw, hne⟩
      · intro rt rn n v
        constructor
        · rintro ⟨x, hx, h1, h2, hx3⟩
          rcases (mem x).1 hx with ⟨hm, _⟩ | ⟨y, hy, hk, rfl⟩ | ⟨hall, rfl⟩
          · exact .inl ⟨x, hm, h1, h2, hx3⟩
          · have hk' := (Prod.mk.injEq ..).mp hk
            have e1 := (Prod.mk.injEq ..).mp (hkey y)
            rcases AlterConfigsResource.mem_added.1 hx3 with hin | ⟨rfl, rfl, hno⟩
            · exact .inl ⟨y, hy, e1.1.symm.trans h1, e1.2.symm.trans h2, hin⟩
            · refine .inr ⟨⟨h1.symm.trans (e1.1.trans hk'.1), h2.symm.trans (e1.2.trans hk'.2), rfl, rfl⟩, ?_⟩
              rintro ⟨w, z, hz, hz1, hz2, e, he, hn, _⟩
              have hzy : z = y := List.inj_on_of_nodup_map h.resources hz hy (by simp [hz1, hz2, hk'.1, hk'.2])
              subst hzy
              exact hno ⟨e, he, hn⟩
          · obtain ⟨e, he, hn, hv⟩ := hx3
            simp only [List.mem_singleton] at he
            subst he
            refine .inr ⟨⟨h1.symm, h2.symm, hn.symm, hv.symm⟩, ?_⟩
            rintro ⟨w, z, hz, hz1, hz2, _⟩
            exact hall z hz (by simp [hz1, hz2])
        · rintro (⟨x, hx, h1, h2, hin⟩ | ⟨⟨rfl, rfl, rfl, rfl⟩, hno⟩)
          · by_cases hk : (x.resourceType, x.resourceName) = (a.rt, a.rn)
            · have e1 := (Prod.mk.injEq ..).mp (hkey x)
              exact ⟨_, (mem _).2 (.inr (.inl ⟨x, hx, hk, rfl⟩)), e1.1.trans h1, e1.2.trans h2, AlterConfigsResource.mem_added.2 (.inl hin)⟩
            · exact ⟨x, (mem x).2 (.inl ⟨hx, hk⟩), h1, h2, hin⟩
          · by_cases hk : ∃ x ∈ r.resources, (x.resourceType, x.resourceName) = (a.rt, a.rn)
            · obtain ⟨x, hx, hk⟩ := hk
              have e1 := (Prod.mk.injEq ..).mp (hkey x)
              have hk' := (Prod.mk.injEq ..).mp hk
              refine ⟨_, (mem _).2 (.inr (.inl ⟨x, hx, hk, rfl⟩)), e1.1.trans hk'.1, e1.2.trans hk'.2, AlterConfigsResource.mem_added.2 (.inr ⟨rfl, rfl, ?_⟩)⟩
              rintro ⟨e, he, hn⟩
              exact hno ⟨_, x, hx, hk'.1, hk'.2, e, he, hn, rfl⟩
            · exact ⟨_, (mem _).2 (.inr (.inr ⟨fun x hx e => hk ⟨x, hx, e⟩, rfl⟩)), rfl, rfl, _, List.mem_singleton.2 rfl, rfl, rfl⟩
    · exact absurd ⟨e.2, ⟨res, hres, h1, h2, e, he, hn, rfl⟩, hv⟩ hbad

theorem AlterConfigsRequest.addAll_spec (adds : List SettingAdd) : ∀ (r : AlterConfigsRequest) (done : List SettingAdd), r.Once →
    (∀ rt rn n v, r.has rt rn n v ↔ firstAdded done rt rn n = some v) →
    (r.addAll adds).Once ∧ ∀ rt rn n v, (r.addAll adds).has rt rn n v ↔ firstAdded (done ++ adds) rt rn n = some v := by
  induction adds with
  | nil => intro r done h1 h2; simpa [AlterConfigsRequest.addAll] using ⟨h1, h2⟩
  | cons a as ih =>
    intro r done h1 h2
    have hstep : ∀ r', r'.Once → (∀ rt rn n v, AlterConfigsRequest.has r' rt rn n v ↔ firstAdded (done ++ [a]) rt rn n = some v) →
        (match r.addConfig a.rt a.rn a.name a.value with | .ok r' => r' | .error _ => r) = r' →
        (r.addAll (a :: as)).Once ∧ ∀ rt rn n v, (r.addAll (a :: as)).has rt rn n v ↔ firstAdded (done ++ a :: as) rt rn n = some v := by
      intro r' hr1 hr2 he
      have := ih r' (done ++ [a]) hr1 hr2
      simp only [List.append_assoc, List.singleton_append] at this
      unfold AlterConfigsRequest.addAll
      rw [List.foldl_cons, he]
      exact this
    rcases r.add_step h1 a with ⟨r', he, ho, _, hh⟩ | ⟨⟨x, he⟩, w, hw, _⟩
    · refine hstep r' ho ?_ (by rw [he])
      intro rt rn n v
      rw [hh, firstAdded_append, h2]
      cases hfa : firstAdded done rt rn n with
      | some u =>
        simp only [Option.some_or, Option.some.injEq]
        constructor
        · rintro (h | ⟨⟨rfl, rfl, rfl, rfl⟩, hno⟩)
          · exact h
          · exact absurd ⟨u, (h2 _ _ _ _).2 hfa⟩ hno
        · exact .inl
      | none =>
        simp only [Option.none_or, reduceCtorEq, false_or]
        constructor
        · rintro ⟨⟨rfl, rfl, rfl, rfl⟩, _⟩
          simp
        · intro h
          split at h
          · rename_i hk
            obtain ⟨rfl, rfl, rfl⟩ := hk
            simp only [Option.some.injEq] at h
            refine ⟨⟨rfl, rfl, rfl, h.symm⟩, ?_⟩
            rintro ⟨w, hw⟩
            rw [h2, hfa] at hw
            cases hw
          · cases h
    · refine hstep r h1 ?_ (by rw [he])
      intro rt rn n v
      rw [h2, firstAdded_append]
      by_cases hk : a.rt = rt ∧ a.rn = rn ∧ a.name = n
      · obtain ⟨rfl, rfl, rfl⟩ := hk
        rw [(h2 _ _ _ _).1 hw]
        rfl
      · rw [if_neg hk, Option.or_none]

/-- C76: however settings are added to an alter-configs request, every resource and every setting is in it once; the settings in
it are the ones added first; and a setting is refused if and only if another value for it was added before. -/
theorem C76_alter_configs (r : AlterConfigsRequest) (hr : r.resources = []) (adds : List SettingAdd) (a : SettingAdd) :
    (r.addAll adds).Once ∧
    (∀ rt rn n v, (r.addAll adds).has rt rn n v ↔ firstAdded adds rt rn n = some v) ∧
    ((∃ r', (r.addAll adds).addConfig a.rt a.rn a.name a.value = .ok r') ↔ firstAdded (adds ++ [a]) a.rt a.rn a.name = some a.value) := by
  have h0 : r.Once := ⟨by simp [hr], by simp [hr]⟩
  obtain ⟨h1, h2⟩ := r.addAll_spec adds [] h0 (by intro rt rn n v; simp [AlterConfigsRequest.has, hr, firstAdded])
  simp only [List.nil_append] at h2
  refine ⟨h1, h2, ?_⟩
  rw [firstAdded_append, if_pos ⟨rfl, rfl, rfl⟩]
  rcases (r.addAll adds).add_step h1 a with ⟨r', he, _, hw, _⟩ | ⟨⟨x, he⟩, w, hw, hne⟩
  · refine ⟨fun _ => ?_, fun _ => ⟨r', he⟩⟩
    cases hf : firstAdded adds a.rt a.rn a.name with
    | none => rfl
    | some u => rw [hw u ((h2 _ _ _ _).2 hf)]; rfl
  · rw [(h2 _ _ _ _).1 hw]
    simp only [Option.some_or, Option.some.injEq]
    refine ⟨?_, fun e => absurd e hne⟩
    rintro ⟨r', h⟩
    rw [he] at h
    cases h

example : (({} : AlterConfigsRequest).addAll [⟨2, [1], [7], [0]⟩, ⟨2, [1], [7], [1]⟩, ⟨2, [1], [8], [1]⟩, ⟨4, [], [7], [1]⟩]).resources =
    [⟨2, [1], [([7], [0]), ([8], [1])]⟩, ⟨4, [], [([7], [1])]⟩] := by decide

/-! ## Incremental alter configs -/

/-- The setting is in the request. -/
def IncrementalAlterConfigsRequest.has (r : IncrementalAlterConfigsRequest) (rt : UInt8) (rn name value : Bytes) : Prop :=
  ∃ res ∈ r.resources, res.resourceType = rt ∧ res.resourceName = rn ∧ ∃ e ∈ res.entries, e.name = name ∧ e.value = value

/-- Every resource is listed once, and every setting once for its resource. -/
structure IncrementalAlterConfigsRequest.Once (r : IncrementalAlterConfigsRequest) : Prop where
  resources : (r.resources.map fun res => (res.resourceType, res.resourceName)).Nodup
  settings : ∀ res ∈ r.resources, (res.entries.map fun e => e.name).Nodup

/-- adding one setting after the other; a refused one is dropped -/
def IncrementalAlterConfigsRequest.addAll (r : IncrementalAlterConfigsRequest) (adds : List SettingAdd) : IncrementalAlterConfigsRequest :=
  adds.foldl (fun r a => match r.addConfig a.rt a.rn a.name a.value with | .ok r' => r' | .error _ => r) r

/-- the resource after the addition, whether it is refused or not -/
def IncrementalResource.added (name value : Bytes) (res : IncrementalResource) : IncrementalResource :=
  if ∃ e ∈ res.entries, e.name = name then res else { res with entries := res.entries ++ [⟨name, 0, value⟩] }

theorem IncrementalResource.add_cases (name value : Bytes) (res : IncrementalResource) (hnd : (res.entries.map fun e => e.name).Nodup) :
    (res.add name value = .ok (res.added name value) ∧ (∀ e ∈ res.entries, e.name = name → e.value = value)) ∨
    ((∃ x, res.add name value = .error x) ∧ ∃ e ∈ res.entries, e.name = name ∧ e.value ≠ value) := by
  unfold IncrementalResource.add IncrementalResource.added
  cases hf : res.entries.find? (fun e => e.name == name) with
  | none =>
    left
    have hno : ¬ ∃ e ∈ res.entries, e.name = name := by
      rintro ⟨e, he, hn⟩
      have := List.find?_eq_none.1 hf e he
      simp [hn] at this
    simp only [if_neg hno]
    exact ⟨trivial, fun e he hn => absurd ⟨e, he, hn⟩ hno⟩
  | some c =>
    have hc := List.mem_of_find?_eq_some hf
    have hn : c.name = name := by simpa using List.find?_some hf
    have huniq : ∀ e ∈ res.entries, e.name = name → e = c := by
      intro e he hne
      exact List.inj_on_of_nodup_map hnd he hc (hne.trans hn.symm)
    simp only
    by_cases hv : c.value = value
    · left
      rw [if_neg (by simpa using hv), if_pos ⟨c, hc, hn⟩]
      exact ⟨rfl, fun e he hne => by rw [huniq e he hne]; exact hv⟩
    · right
      rw [if_pos hv]
      exact ⟨⟨_, rfl⟩, c, hc, hn, hv⟩

/-- the resources after the addition, whether it is refused or not -/
theorem addIncrementalConfig_cases (rt : UInt8) (rn name value : Bytes) : ∀ (l : List IncrementalResource), (∀ res ∈ l, (res.entries.map fun e => e.name).Nodup) →
    (addIncrementalConfig rt rn name value l =
        .ok (inFirst (fun res => (res.resourceType, res.resourceName) == (rt, rn)) (IncrementalResource.added name value) ⟨rt, rn, [⟨name, 0, value⟩]⟩ l)) ∨
    ((∃ x, addIncrementalConfig rt rn name value l = .error x) ∧ ∃ res ∈ l, res.resourceType = rt ∧ res.resourceName = rn ∧
      ∃ e ∈ res.entries, e.name = name ∧ e.value ≠ value)
  | [], _ => .inl rfl
  | res :: rest, hnd => by
    unfold addIncrementalConfig inFirst
    by_cases h : res.resourceType = rt ∧ res.resourceName = rn
    · have hb : ((res.resourceType, res.resourceName) == (rt, rn)) = true := by simp [h]
      rw [if_pos h, if_pos hb]
      rcases res.add_cases name value (hnd res (.head _)) with ⟨h1, _⟩ | ⟨⟨x, h1⟩, h2⟩
      · left; rw [h1]; rfl
      · right; exact ⟨⟨x, by rw [h1]; rfl⟩, res, .head _, h.1, h.2, h2⟩
    · have hb : ¬ ((res.resourceType, res.resourceName) == (rt, rn)) = true := by simpa using h
      rw [if_neg h, if_neg hb]
      rcases addIncrementalConfig_cases rt rn name value rest (fun x hx => hnd x (.tail _ hx)) with h1 | ⟨⟨x, h1⟩, y, hy, h2⟩
      · left; rw [h1]; rfl
      · right; exact ⟨⟨x, by rw [h1]; rfl⟩, y, .tail _ hy, h2⟩

theorem IncrementalAlterConfigsRequest.has_unique {r : IncrementalAlterConfigsRequest} (h : r.Once) {rt : UInt8} {rn name v w : Bytes} (h1 : r.has rt rn name v) (h2 : r.has rt rn name w) : v = w := by
  obtain ⟨x, hx, hx1, hx2, e, he, hen, hev⟩ := h1
  obtain ⟨y, hy, hy1, hy2, f, hf, hfn, hfv⟩ := h2
  have hxy : x = y := List.inj_on_of_nodup_map h.resources hx hy (by simp [hx1, hx2, hy1, hy2])
  subst hxy
  have hef : e = f := List.inj_on_of_nodup_map (h.settings x hx) he hf (hen.trans hfn.symm)
  rw [← hev, ← hfv, hef]

theorem IncrementalResource.mem_added {name value : Bytes} {res : IncrementalResource} {n v : Bytes} :
    (∃ e ∈ (res.added name value).entries, e.name = n ∧ e.value = v) ↔
      (∃ e ∈ res.entries, e.name = n ∧ e.value = v) ∨ (n = name ∧ v = value ∧ ¬ ∃ e ∈ res.entries, e.name = name) := by
  unfold IncrementalResource.added
  split
  · rename_i hex
    constructor
    · exact .inl
    · rintro (h | ⟨_, _, h⟩)
      · exact h
      · exact absurd hex h
  · rename_i hno
    simp only [List.mem_append, List.mem_singleton]
    constructor
    · rintro ⟨e, he | rfl, h1, h2⟩
      · exact .inl ⟨e, he, h1, h2⟩
      · exact .inr ⟨h1.symm, h2.symm, hno⟩
    · rintro (⟨e, he, h1, h2⟩ | ⟨rfl, rfl, _⟩)
      · exact ⟨e, .inl he, h1, h2⟩
      · exact ⟨_, .inr rfl, rfl, rfl⟩

/-- one addition -/
theorem IncrementalAlterConfigsRequest.add_step (r : IncrementalAlterConfigsRequest) (h : r.Once) (a : SettingAdd) :
    (∃ r', r.addConfig a.rt a.rn a.name a.value = .ok r' ∧ r'.Once ∧ (∀ w, r.has a.rt a.rn a.name w → w = a.value) ∧
      ∀ rt rn n v, r'.has rt rn n v ↔ r.has rt rn n v ∨
        ((rt = a.rt ∧ rn = a.rn ∧ n = a.name ∧ v = a.value) ∧ ¬ ∃ w, r.has a.rt a.rn a.name w)) ∨
    ((∃ x, r.addConfig a.rt a.rn a.name a.value = .error x) ∧ ∃ w, r.has a.rt a.rn a.name w ∧ w ≠ a.value) := by
  by_cases hbad : ∃ w, r.has a.rt a.rn a.name w ∧ w ≠ a.value
  · right
    refine ⟨?_, hbad⟩
    rcases addIncrementalConfig_cases a.rt a.rn a.name a.value r.resources h.settings with hok | ⟨⟨x, hx⟩, _⟩
    · exfalso
      -- the loop cannot have succeeded: the resource exists and has another value
      obtain ⟨w, ⟨res, hres, h1, h2, e, he, hn, hv⟩, hw⟩ := hbad
      have : ∀ l : List IncrementalResource, (l.map fun res => (res.resourceType, res.resourceName)).Nodup → (∀ y ∈ l, y ∈ r.resources) → res ∈ l →
          ∃ x, addIncrementalConfig a.rt a.rn a.name a.value l = .error x := by
        intro l
        induction l with
        | nil => intro _ _ hm; cases hm
        | cons y ys ih =>
          intro hnd hsub hm
          unfold addIncrementalConfig
          simp only [List.map_cons, List.nodup_cons] at hnd
          by_cases hy : y.resourceType = a.rt ∧ y.resourceName = a.rn
          · have hyr : y = res := List.inj_on_of_nodup_map h.resources (hsub y (.head _)) hres (by simp [hy.1, hy.2, h1, h2])
            subst hyr
            rw [if_pos hy]
            rcases y.add_cases a.name a.value (h.settings y hres) with ⟨_, hall⟩ | ⟨⟨x, hx⟩, _⟩
            · exact absurd (hall e he hn) (by rw [hv]; exact hw)
            · exact ⟨x, by rw [hx]; rfl⟩
          · rw [if_neg hy]
            rcases List.mem_cons.1 hm with rfl | hm
            · exact absurd ⟨h1, h2⟩ hy
            · obtain ⟨x, hx⟩ := ih hnd.2 (fun z hz => hsub z (.tail _ hz)) hm
              exact ⟨x, by rw [hx]; rfl⟩
      obtain ⟨x, hx⟩ := this r.resources h.resources (fun _ hy => hy) hres
      rw [hok] at hx
      cases hx
    · exact ⟨x, by unfold IncrementalAlterConfigsRequest.addConfig; rw [hx]; rfl⟩
  · left
    rcases addIncrementalConfig_cases a.rt a.rn a.name a.value r.resources h.settings with hok | ⟨_, res, hres, h1, h2, e, he, hn, hv⟩
    · have hkey : ∀ x : IncrementalResource, ((x.added a.name a.value).resourceType, (x.added a.name a.value).resourceName) = (x.resourceType, x.resourceName) := by
        intro x; unfold IncrementalResource.added; split <;> rfl
      have mem := inFirst_mem (fun res : IncrementalResource => (res.resourceType, res.resourceName)) (a.rt, a.rn) (IncrementalResource.added a.name a.value)
        ⟨a.rt, a.rn, [⟨a.name, 0, a.value⟩]⟩ r.resources h.resources
      refine ⟨_, by unfold IncrementalAlterConfigsRequest.addConfig; rw [hok]; rfl, ⟨?_, ?_⟩, ?_, ?_⟩
      · exact inFirst_nodup (fun res : IncrementalResource => (res.resourceType, res.resourceName)) (a.rt, a.rn) (IncrementalResource.added a.name a.value)
          ⟨a.rt, a.rn, [⟨a.name, 0, a.value⟩]⟩ hkey rfl r.resources h.resources
      · intro res hres
        rcases (mem res).1 hres with ⟨hm, _⟩ | ⟨y, hy, _, rfl⟩ | ⟨_, rfl⟩
        · exact h.settings res hm
        · unfold IncrementalResource.added
          split
          · exact h.settings y hy
          · rename_i hno
            simp only [List.map_append, List.map_cons, List.map_nil]
            rw [List.nodup_append]
            refine ⟨h.settings y hy, by simp, ?_⟩
            intro u hu w hw
            simp only [List.mem_singleton] at hw
            subst hw
            rintro rfl
            obtain ⟨e, he, hn⟩ := List.mem_map.1 hu
            exact hno ⟨e, he, hn⟩
        · simp
      · intro w hw
        exact Classical.byContradiction fun hne => hbad ⟨w, hw, hne⟩
      · intro rt rn n v
        constructor
        · rintro ⟨x, hx, h1, h2, hx3⟩
          rcases (mem x).1 hx with ⟨hm, _⟩ | ⟨y, hy, hk, rfl⟩ | ⟨hall, rfl⟩
          · exact .inl ⟨x, hm, h1, h2, hx3⟩
          · have hk' := (Prod.mk.injEq ..).mp hk
            have e1 := (Prod.mk.injEq ..).mp (hkey y)
            rcases IncrementalResource.mem_added.1 hx3 with hin | ⟨rfl, rfl, hno⟩
            · exact .inl ⟨y, hy, e1.1.symm.trans h1, e1.2.symm.trans h2, hin⟩
            · refine .inr ⟨⟨h1.symm.trans (e1.1.trans hk'.1), h2.symm.trans (e1.2.trans hk'.2), rfl, rfl⟩, ?_⟩
              rintro ⟨w, z, hz, hz1, hz2, e, he, hn, _⟩
              have hzy : z = y := List.inj_on_of_nodup_map h.resources hz hy (by simp [hz1, hz2, hk'.1, hk'.2])
              subst hzy
              exact hno ⟨e, he, hn⟩
          · obtain ⟨e, he, hn, hv⟩ := hx3
            simp only [List.mem_singleton] at he
            subst he
            refine .inr ⟨⟨h1.symm, h2.symm, hn.symm, hv.symm⟩, ?_⟩
            rintro ⟨w, z, hz, hz1, hz2, _⟩
            exact hall z hz (by simp [hz1, hz2])
        · rintro (⟨x, hx, h1, h2, hin⟩ | ⟨⟨rfl, rfl, rfl, rfl⟩, hno⟩)
          · by_cases hk : (x.resourceType, x.resourceName) = (a.rt, a.rn)
            · have e1 := (Prod.mk.injEq ..).mp (hkey x)
              exact ⟨_, (mem _).2 (.inr (.inl ⟨x, hx, hk, rfl⟩)), e1.1.trans h1, e1.2.trans h2, IncrementalResource.mem_added.2 (.inl hin)⟩
            · exact ⟨x, (mem x).2 (.inl ⟨hx, hk⟩), h1, h2, hin⟩
          · by_cases hk : ∃ x ∈ r.resources, (x.resourceType, x.resourceName) = (a.rt, a.rn)
            · obtain ⟨x, hx, hk⟩ := hk
              have e1 := (Prod.mk.injEq ..).mp (hkey x)
              have hk' := (Prod.mk.injEq ..).mp hk
              refine ⟨_, (mem _).2 (.inr (.inl ⟨x, hx, hk, rfl⟩)), e1.1.trans hk'.1, e1.2.trans hk'.2, IncrementalResource.mem_added.2 (.inr ⟨rfl, rfl, ?_⟩)⟩
              rintro ⟨e, he, hn⟩
              exact hno ⟨_, x, hx, hk'.1, hk'.2, e, he, hn, rfl⟩
            · exact ⟨_, (mem _).2 (.inr (.inr ⟨fun x hx e => hk ⟨x, hx, e⟩, rfl⟩)), rfl, rfl, _, List.mem_singleton.2 rfl, rfl, rfl⟩
    · exact absurd ⟨e.value, ⟨res, hres, h1, h2, e, he, hn, rfl⟩, hv⟩ hbad

theorem IncrementalAlterConfigsRequest.addAll_spec (adds : List SettingAdd) : ∀ (r : IncrementalAlterConfigsRequest) (done : List SettingAdd), r.Once →
    (∀ rt rn n v, r.has rt rn n v ↔ firstAdded done rt rn n = some v) →
    (r.addAll adds).Once ∧ ∀ rt rn n v, (r.addAll adds).has rt rn n v ↔ firstAdded (done ++ adds) rt rn n = some v := by
  induction adds with
  | nil => intro r done h1 h2; simpa [IncrementalAlterConfigsRequest.addAll] using ⟨h1, h2⟩
  | cons a as ih =>
    intro r done h1 h2
    have hstep : ∀ r', r'.Once → (∀ rt rn n v, IncrementalAlterConfigsRequest.has r' rt rn n v ↔ firstAdded (done ++ [a]) rt rn n = some v) →
        (match r.addConfig a.rt a.rn a.name a.value with | .ok r' => r' | .error _ => r) = r' →
        (r.addAll (a :: as)).Once ∧ ∀ rt rn n v, (r.addAll (a :: as)).has rt rn n v ↔ firstAdded (done ++ a :: as) rt rn n = some v := by
      intro r' hr1 hr2 he
      have := ih r' (done ++ [a]) hr1 hr2
      simp only [List.append_assoc, List.singleton_append] at this
      unfold IncrementalAlterConfigsRequest.addAll
      rw [List.foldl_cons, he]
      exact this
    rcases r.add_step h1 a with ⟨r', he, ho, _, hh⟩ | ⟨⟨x, he⟩, w, hw, _⟩
    · refine hstep r' ho ?_ (by rw [he])
      intro rt rn n v
      rw [hh, firstAdded_append, h2]
      cases hfa : firstAdded done rt rn n with
      | some u =>
        simp only [Option.some_or, Option.some.injEq]
        constructor
        · rintro (h | ⟨⟨rfl, rfl, rfl, rfl⟩, hno⟩)
          · exact h
          · exact absurd ⟨u, (h2 _ _ _ _).2 hfa⟩ hno
        · exact .inl
      | none =>
        simp only [Option.none_or, reduceCtorEq, false_or]
        constructor
        · rintro ⟨⟨rfl, rfl, rfl, rfl⟩, _⟩
          simp
        · intro h
          split at h
          · rename_i hk
            obtain ⟨rfl, rfl, rfl⟩ := hk
            simp only [Option.some.injEq] at h
            refine ⟨⟨rfl, rfl, rfl, h.symm⟩, ?_⟩
            rintro ⟨w, hw⟩
            rw [h2, hfa] at hw
            cases hw
          · cases h
    · refine hstep r h1 ?_ (by rw [he])
      intro rt rn n v
      rw [h2, firstAdded_append]
      by_cases hk : a.rt = rt ∧ a.rn = rn ∧ a.name = n
      · obtain ⟨rfl, rfl, rfl⟩ := hk
        rw [(h2 _ _ _ _).1 hw]
        rfl
      · rw [if_neg hk, Option.or_none]

/-- C76: however settings are added to an incremental-alter-configs request, every resource and every setting is in it once; the settings in
it are the ones added first; and a setting is refused if and only if another value for it was added before. -/
theorem C76_incremental_alter_configs (r : IncrementalAlterConfigsRequest) (hr : r.resources = []) (adds : List SettingAdd) (a : SettingAdd) :
    (r.addAll adds).Once ∧
    (∀ rt rn n v, (r.addAll adds).has rt rn n v ↔ firstAdded adds rt rn n = some v) ∧
    ((∃ r', (r.addAll adds).addConfig a.rt a.rn a.name a.value = .ok r') ↔ firstAdded (adds ++ [a]) a.rt a.rn a.name = some a.value) := by
  have h0 : r.Once := ⟨by simp [hr], by simp [hr]⟩
  obtain ⟨h1, h2⟩ := r.addAll_spec adds [] h0 (by intro rt rn n v; simp [IncrementalAlterConfigsRequest.has, hr, firstAdded])
  simp only [List.nil_append] at h2
  refine ⟨h1, h2, ?_⟩
  rw [firstAdded_append, if_pos ⟨rfl, rfl, rfl⟩]
  rcases (r.addAll adds).add_step h1 a with ⟨r', he, _, hw, _⟩ | ⟨⟨x, he⟩, w, hw, hne⟩
  · refine ⟨fun _ => ?_, fun _ => ⟨r', he⟩⟩
    cases hf : firstAdded adds a.rt a.rn a.name with
    | none => rfl
    | some u => rw [hw u ((h2 _ _ _ _).2 hf)]; rfl
  · rw [(h2 _ _ _ _).1 hw]
    simp only [Option.some_or, Option.some.injEq]
    refine ⟨?_, fun e => absurd e hne⟩
    rintro ⟨r', h⟩
    rw [he] at h
    cases h

example : (({} : IncrementalAlterConfigsRequest).addAll [⟨2, [1], [7], [0]⟩, ⟨2, [1], [7], [1]⟩, ⟨2, [1], [8], [1]⟩, ⟨4, [], [7], [1]⟩]).resources =
    [⟨2, [1], [⟨[7], 0, [0]⟩, ⟨[8], 0, [1]⟩]⟩, ⟨4, [], [⟨[7], 0, [1]⟩]⟩] := by decide

end Healer
