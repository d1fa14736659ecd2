import Verif.Model.Bootstrap
import Verif.Props.Brokers2

/-!
# C147: finding the cluster
-/

namespace Healer

open Brokers

variable {W : Type}

/-! ## What is required -/

/-- What was done is an attempt at the server `a` that did not help: it could not be connected to, or it was asked and answered with an error or without brokers. -/
inductive Useless (a : Bytes) : List Done → Prop where
  | refused (e : Err) : Useless a [.connectFailed a (-1) e]
  | failed (h : Nat) (r : MetadataResponse) (e : Err) : Useless a [.connected a (-1) h, .metadata h [] (r, some e)]
  | empty (h : Nat) (r : MetadataResponse) : r.brokers = [] → Useless a [.connected a (-1) h, .metadata h [] (r, none)]

/-- attempts at the servers given, in their order -/
inductive AllUseless : List Bytes → List Done → Prop where
  | nil : AllUseless [] []
  | cons {a : Bytes} {as : List Bytes} {d ds : List Done} : Useless a d → AllUseless as ds → AllUseless (a :: as) (d ++ ds)

/-- the server can be connected to at any time and names the brokers of the cluster -/
def Helpful (net : Net W) (a : Bytes) : Prop :=
  ∀ w, ∃ h w' r, net.connect a (-1) w = (.ok h, w') ∧ (net.metadata h [] w').1 = (r, none) ∧ r.brokers ≠ []

/-- the separators taken away: the text is the servers with commas between them -/
def joined : List Bytes → Bytes
  | [] => []
  | [a] => a
  | a :: b :: as => a ++ 44 :: joined (b :: as)

/-! ## Proofs -/

theorem fromOne_error (net : Net W) (bootstrap : List Bytes) (a : Bytes) (h : Nat) (w : W) (e : Err) (hf : fromOne net bootstrap a h w = .error e) :
    Useless a [.connected a (-1) h, .metadata h [] (net.metadata h [] w).1] := by
  unfold fromOne at hf
  simp only [askMetadata] at hf
  rcases hm : (net.metadata h [] w).1 with ⟨r, _ | e'⟩
  · rw [hm] at hf
    simp only at hf
    split at hf
    · rename_i hb
      exact .empty h r hb
    · cases hf
  · exact .failed h r e'

/-- the map of node ids keeps the last entry for each node -/
theorem fromOne_infos (address : Bytes) (h : Nat) (bs : List BrokerInfo) (b : Brokers W) :
    (bs.foldl (fun (b : Brokers W) i =>
      { b with infos := b.infos.set i.nodeID i
               cache := if address = i.netAddress then b.cache.set i.nodeID (h, -1) else b.cache }) b).infos =
      bs.foldl (fun m i => m.set i.nodeID i) b.infos ∧
    (bs.foldl (fun (b : Brokers W) i =>
      { b with infos := b.infos.set i.nodeID i
               cache := if address = i.netAddress then b.cache.set i.nodeID (h, -1) else b.cache }) b).log = b.log ∧
    (bs.foldl (fun (b : Brokers W) i =>
      { b with infos := b.infos.set i.nodeID i
               cache := if address = i.netAddress then b.cache.set i.nodeID (h, -1) else b.cache }) b).controllerID = b.controllerID ∧
    (bs.foldl (fun (b : Brokers W) i =>
      { b with infos := b.infos.set i.nodeID i
               cache := if address = i.netAddress then b.cache.set i.nodeID (h, -1) else b.cache }) b).bootstrap = b.bootstrap := by
  induction bs generalizing b with
  | nil => exact ⟨rfl, rfl, rfl, rfl⟩
  | cons i bs ih =>
    simp only [List.foldl_cons]
    exact ih _

theorem fromOne_good (net : Net W) (bootstrap : List Bytes) (a : Bytes) (h : Nat) (w : W) (b : Brokers W) (hf : fromOne net bootstrap a h w = .ok b) :
    ∃ r, (net.metadata h [] w).1 = (r, none) ∧ r.brokers ≠ [] ∧ b.log = [.metadata h [] (r, none)] ∧ b.infos = infosOf r.brokers ∧
      b.controllerID = r.controllerID ∧ b.bootstrap = bootstrap := by
  unfold fromOne at hf
  simp only [askMetadata] at hf
  rcases hm : (net.metadata h [] w).1 with ⟨r, _ | e'⟩
  · rw [hm] at hf
    simp only at hf
    split at hf
    · cases hf
    · rename_i hb
      cases hf
      have := fromOne_infos a h r.brokers (W := W) ⟨bootstrap, [], [], r.controllerID, (net.metadata h [] w).2, [.metadata h [] (r, none)]⟩
      exact ⟨r, rfl, hb, this.2.1, this.1, this.2.2.1, this.2.2.2⟩
  · rw [hm] at hf
    cases hf

theorem bootstrapLoop_spec (net : Net W) (all : List Bytes) (as : List Bytes) (w : W) (log : List Done) (x : Except Err (Brokers W)) (log' : List Done)
    (h : bootstrapLoop net all as w log = (x, log')) :
    (∀ b, x = .ok b → ∃ pre a post ds k r, as = pre ++ a :: post ∧ AllUseless pre ds ∧ r.brokers ≠ [] ∧
      log' = log ++ ds ++ [.connected a (-1) k, .metadata k [] (r, none)] ∧ b.log = log' ∧ b.infos = infosOf r.brokers ∧ b.controllerID = r.controllerID ∧
      b.bootstrap = all) ∧
    (∀ e, x = .error e → ∃ ds, AllUseless as ds ∧ log' = log ++ ds) := by
  induction as generalizing w log with
  | nil =>
    simp only [bootstrapLoop, Prod.mk.injEq] at h
    obtain ⟨rfl, rfl⟩ := h
    exact ⟨fun b hb => (by cases hb), fun e _ => ⟨[], .nil, by simp⟩⟩
  | cons a as ih =>
    unfold bootstrapLoop at h
    rcases hc : net.connect a (-1) w with ⟨e | k, w1⟩
    · rw [hc] at h
      simp only at h
      obtain ⟨h1, h2⟩ := ih _ _ h
      refine ⟨fun b hb => ?_, fun e' he => ?_⟩
      · obtain ⟨pre, a', post, ds, k, r, p1, p2, p3, p4, p5⟩ := h1 b hb
        exact ⟨a :: pre, a', post, _, k, r, by rw [p1]; rfl, .cons (.refused e) p2, p3, by rw [p4]; simp, p5⟩
      · obtain ⟨ds, p1, p2⟩ := h2 e' he
        exact ⟨_, .cons (.refused e) p1, by rw [p2]; simp⟩
    · rw [hc] at h
      simp only at h
      rcases hf : fromOne net all a k w1 with e | b0
      · rw [hf] at h
        simp only at h
        have hu := fromOne_error net all a k w1 e hf
        obtain ⟨h1, h2⟩ := ih _ _ h
        refine ⟨fun b hb => ?_, fun e' he => ?_⟩
        · obtain ⟨pre, a', post, ds, k', r, p1, p2, p3, p4, p5⟩ := h1 b hb
          exact ⟨a :: pre, a', post, _, k', r, by rw [p1]; rfl, .cons hu p2, p3, by rw [p4]; simp, p5⟩
        · obtain ⟨ds, p1, p2⟩ := h2 e' he
          exact ⟨_, .cons hu p1, by rw [p2]; simp⟩
      · rw [hf] at h
        simp only [Prod.mk.injEq] at h
        obtain ⟨rfl, rfl⟩ := h
        refine ⟨fun b hb => ?_, fun e' he => by cases he⟩
        cases hb
        obtain ⟨r, _, hb2, hb3, hb4, hb5, hb6⟩ := fromOne_good net all a k w1 b0 hf
        exact ⟨[], a, as, [], k, r, rfl, .nil, hb2, by rw [hb3]; simp, rfl, hb4, hb5, hb6⟩

theorem set_ne_nil {κ υ : Type} [DecidableEq κ] (m : AMap κ υ) (k : κ) (v : υ) : m.set k v ≠ [] := by
  intro e
  have := AMap.get_set m k k v
  rw [e] at this
  simp [AMap.get_nil] at this

theorem splitAt_joined (as : List Bytes) (hne : as ≠ []) (h : ∀ a ∈ as, 44 ∉ a) : splitAt 44 (joined as) = as := by
  have hplain : ∀ a : Bytes, 44 ∉ a → splitAt 44 a = [a] := by
    intro a ha
    induction a with
    | nil => rfl
    | cons c cs ih =>
      have hc : c ≠ 44 := fun e => ha (by simp [e])
      have hcs : 44 ∉ cs := fun hm => ha (List.mem_cons_of_mem _ hm)
      unfold splitAt
      rw [if_neg hc, ih hcs]
  have happ : ∀ (a rest : Bytes), 44 ∉ a → splitAt 44 (a ++ 44 :: rest) = a :: splitAt 44 rest := by
    intro a rest ha
    induction a with
    | nil => simp [splitAt]
    | cons c cs ih =>
      have hc : c ≠ 44 := fun e => ha (by simp [e])
      have hcs : 44 ∉ cs := fun hm => ha (List.mem_cons_of_mem _ hm)
      rw [List.cons_append]
      conv => lhs; unfold splitAt
      rw [if_neg hc, ih hcs]
  induction as with
  | nil => exact absurd rfl hne
  | cons a as ih =>
    cases as with
    | nil => exact hplain a (h a (by simp))
    | cons b as =>
      show splitAt 44 (a ++ 44 :: joined (b :: as)) = _
      rw [happ _ _ (h a (by simp)), ih (by simp) (fun x hx => h x (List.mem_cons_of_mem _ hx))]

/-- C147: the servers given (with commas between them) are tried in their order until one names the brokers of the cluster; those before it were tried in vain.  The nodes known and
the controller are those it named, and the servers are remembered.  If there is no such server the call fails, and all were tried.
Missing: what is left open (`C147_violated_left_open`). -/
theorem C147_in_order_partial (net : Net W) (servers : List Bytes) (hne : servers ≠ []) (hs : ∀ a ∈ servers, 44 ∉ a) (w : W) :
    (∀ b log, newBrokers net (joined servers) w = (.ok b, log) → ∃ pre a post ds k r, servers = pre ++ a :: post ∧ AllUseless pre ds ∧ r.brokers ≠ [] ∧
      log = ds ++ [.connected a (-1) k, .metadata k [] (r, none)] ∧ b.log = log ∧ b.infos = infosOf r.brokers ∧ b.controllerID = r.controllerID ∧
      b.bootstrap = servers) ∧
    (∀ e log, newBrokers net (joined servers) w = (.error e, log) → AllUseless servers log) := by
  unfold newBrokers
  rw [splitAt_joined servers hne hs]
  refine ⟨fun b log h => ?_, fun e log h => ?_⟩
  · obtain ⟨pre, a, post, ds, k, r, p⟩ := (bootstrapLoop_spec net _ _ _ _ _ _ h).1 b rfl
    exact ⟨pre, a, post, ds, k, r, by simpa using p⟩
  · obtain ⟨ds, h1, h2⟩ := (bootstrapLoop_spec net _ _ _ _ _ _ h).2 e rfl
    rw [h2]
    exact h1

/-- C147: one server that works is enough, wherever it stands in the list.
Missing: what is left open (`C147_violated_left_open`). -/
theorem C147_one_suffices_partial (net : Net W) (servers : List Bytes) (hs : ∀ a ∈ servers, 44 ∉ a) (a : Bytes) (ha : a ∈ servers) (hh : Helpful net a) (w : W) :
    ∃ b, (newBrokers net (joined servers) w).1 = .ok b ∧ b.infos ≠ [] := by
  have hne : servers ≠ [] := fun e => by rw [e] at ha; cases ha
  unfold newBrokers
  rw [splitAt_joined servers hne hs]
  have key : ∀ (as : List Bytes) (w : W) (log : List Done), a ∈ as → ∃ b, (bootstrapLoop net servers as w log).1 = .ok b := by
    intro as
    induction as with
    | nil => intro _ _ hm; cases hm
    | cons c as ih =>
      intro w log hm
      unfold bootstrapLoop
      by_cases hca : c = a
      · obtain ⟨k, w', r, h1, h2, h3⟩ := hh w
        rw [hca, h1]
        simp only
        rcases hf : fromOne net servers a k w' with e | b
        · exfalso
          unfold fromOne at hf
          simp only [askMetadata] at hf
          rw [h2] at hf
          simp only [if_neg h3] at hf
          cases hf
        · exact ⟨_, rfl⟩
      · have hm' : a ∈ as := by
          rcases List.mem_cons.1 hm with e | e
          · exact absurd e.symm hca
          · exact e
        rcases net.connect c (-1) w with ⟨e | k, w1⟩
        · exact ih _ _ hm'
        · simp only
          rcases fromOne net servers c k w1 with e | b
          · exact ih _ _ hm'
          · exact ⟨_, rfl⟩
  obtain ⟨b, hb⟩ := key servers w [] ha
  refine ⟨b, hb, ?_⟩
  rcases hl : bootstrapLoop net servers servers w [] with ⟨x, log⟩
  rw [hl] at hb
  simp only at hb
  subst hb
  obtain ⟨pre, a, post, ds, k, r, _, _, hr, _, _, hi, _⟩ := (bootstrapLoop_spec net _ _ _ _ _ _ hl).1 b rfl
  rw [hi]
  intro hn
  cases hbs : r.brokers with
  | nil => exact hr hbs
  | cons i is =>
    rw [hbs] at hn
    have : ∀ (is : List BrokerInfo) (m : AMap Int32 BrokerInfo), m ≠ [] → is.foldl (fun m i => m.set i.nodeID i) m ≠ [] := by
      intro is
      induction is with
      | nil => intro m hm; exact hm
      | cons i is ih =>
        intro m hm
        refine ih _ ?_
        exact set_ne_nil m i.nodeID i
    exact this is _ (set_ne_nil [] i.nodeID i) hn

/-! ## Connections -/

theorem fromOne_cached (net : Net W) (bootstrap : List Bytes) (a : Bytes) (h : Nat) (w : W) (b : Brokers W) (hf : fromOne net bootstrap a h w = .ok b)
    (r : MetadataResponse) (hr : (net.metadata h [] w).1 = (r, none)) (i : BrokerInfo) (hi : i ∈ r.brokers) (ha : i.netAddress = a) :
    b.cache.get i.nodeID = some (h, -1) := by
  unfold fromOne at hf
  simp only [askMetadata] at hf
  rw [hr] at hf
  simp only at hf
  split at hf
  · cases hf
  · cases hf
    have key : ∀ (bs : List BrokerInfo) (b : Brokers W), (i ∈ bs ∨ b.cache.get i.nodeID = some (h, -1)) →
        (bs.foldl (fun (b : Brokers W) i =>
          { b with infos := b.infos.set i.nodeID i
                   cache := if a = i.netAddress then b.cache.set i.nodeID (h, -1) else b.cache }) b).cache.get i.nodeID = some (h, -1) := by
      intro bs
      induction bs with
      | nil =>
        intro b hb
        rcases hb with hb | hb
        · cases hb
        · exact hb
      | cons j bs ih =>
        intro b hb
        refine ih _ ?_
        by_cases hm : i ∈ bs
        · exact .inl hm
        · right
          show (if a = j.netAddress then b.cache.set j.nodeID (h, -1) else b.cache).get i.nodeID = _
          rcases hb with hb | hb
          · rcases List.mem_cons.1 hb with e | e
            · rw [← e, if_pos ha.symm, AMap.get_set, if_pos rfl]
            · exact absurd e hm
          · split
            · rw [AMap.get_set]
              split
              · rfl
              · exact hb
            · exact hb
    exact key r.brokers _ (.inl hi)

/-- the attempts were refusals of the connection -/
def OnlyRefusals (ds : List Done) : Prop := ∀ d ∈ ds, ∃ a e, d = Done.connectFailed a (-1) e

theorem bootstrapLoop_cached (net : Net W) (all : List Bytes) (as : List Bytes) (w : W) (log : List Done) (b : Brokers W) (log' : List Done)
    (h : bootstrapLoop net all as w log = (.ok b, log')) :
    ∃ ds a k r, log' = log ++ ds ++ [.connected a (-1) k, .metadata k [] (r, none)] ∧ ∀ i ∈ r.brokers, i.netAddress = a → b.cache.get i.nodeID = some (k, -1) := by
  induction as generalizing w log with
  | nil => simp [bootstrapLoop] at h
  | cons a as ih =>
    unfold bootstrapLoop at h
    rcases hc : net.connect a (-1) w with ⟨e | k, w1⟩
    · rw [hc] at h
      simp only at h
      obtain ⟨ds, a', k, r, p1, p2⟩ := ih _ _ h
      exact ⟨.connectFailed a (-1) e :: ds, a', k, r, by rw [p1]; simp, p2⟩
    · rw [hc] at h
      simp only at h
      rcases hf : fromOne net all a k w1 with e | b0
      · rw [hf] at h
        simp only at h
        obtain ⟨ds, a', k', r, p1, p2⟩ := ih _ _ h
        exact ⟨_ :: _ :: ds, a', k', r, by rw [p1]; simp; exact ⟨rfl, rfl⟩, p2⟩
      · rw [hf] at h
        simp only [Prod.mk.injEq, Except.ok.injEq] at h
        obtain ⟨rfl, rfl⟩ := h
        obtain ⟨r, hr, _, hb3, _⟩ := fromOne_good net all a k w1 b0 hf
        exact ⟨[], a, k, r, by rw [hb3]; simp, fun i hi ha => fromOne_cached net all a k w1 b0 hf r hr i hi ha⟩

/-- C147: when the servers tried in vain refused the connection, and the one that helped goes by the address it was given under, the only connection left open is the one kept for its
node, which `Close` closes.  Missing for the full statement: servers that answer uselessly (`C147_violated_left_open`) and servers given under another name (`C147_violated_alias`). -/
theorem C147_open_partial (net : Net W) (servers : Bytes) (w : W) (b : Brokers W) (log ds : List Done) (a : Bytes) (k : Nat) (r : MetadataResponse)
    (h : newBrokers net servers w = (.ok b, log)) (hl : log = ds ++ [.connected a (-1) k, .metadata k [] (r, none)]) (hd : OnlyRefusals ds)
    (i : BrokerInfo) (hi : i ∈ r.brokers) (ha : i.netAddress = a) :
    b.open = [k] ∧ b.cache.get i.nodeID = some (k, -1) := by
  obtain ⟨ds', a', k', r', p1, p2⟩ := bootstrapLoop_cached net _ _ _ _ _ _ h
  have hlog : b.log = log := by
    obtain ⟨_, _, _, _, _, _, _, _, _, _, q, _⟩ := (bootstrapLoop_spec net _ _ _ _ _ _ h).1 b rfl
    exact q
  have heq : ds ++ [Done.connected a (-1) k, .metadata k [] (r, none)] = ds' ++ [Done.connected a' (-1) k', .metadata k' [] (r', none)] := by
    rw [← hl, p1, List.nil_append]
  obtain ⟨h1, h2⟩ := List.append_inj' heq rfl
  simp only [List.cons.injEq, Done.connected.injEq, Done.metadata.injEq, Prod.mk.injEq, and_true, true_and] at h2
  obtain ⟨⟨rfl, rfl⟩, -, rfl⟩ := h2
  refine ⟨?_, p2 i hi ha⟩
  unfold Brokers.open
  rw [hlog, hl]
  have f1 : ds.filterMap Done.opens = [] := by
    rw [List.filterMap_eq_nil_iff]
    intro d hd'
    obtain ⟨x, e, rfl⟩ := hd d hd'
    rfl
  have f2 : ∀ q, ds.any (Done.closes q) = false := by
    intro q
    rw [List.any_eq_false]
    intro d hd'
    obtain ⟨x, e, rfl⟩ := hd d hd'
    simp [Done.closes]
  rw [List.filterMap_append, f1]
  simp only [List.any_append, f2]
  rfl

/-- a:1 answers without brokers, everything else as `goodNet` -/
def halfwitNet : Net Nat :=
  demoNet (fun a => a = [120]) (fun h _ => if h = 1 then (⟨0, 0, [], [], 1, []⟩, none) else (demoMeta, none)) (fun _ => [])

/-- servers "x", which refuses the connection, "y", which does not know any broker, and "a:1" -/
example : (newBrokers halfwitNet (joined [[120], [121], [97, 58, 49]]) 0).2.map Done.brief =
    [("refused", 0, -1, [120]), ("connected", 1, -1, [121]), ("metadata", 1, 0, []), ("connected", 3, -1, [97, 58, 49]), ("metadata", 3, 0, [])] := by decide +kernel

example : Helpful goodNet [97, 58, 49] := fun w => ⟨w, w + 1, demoMeta, rfl, rfl, by decide⟩

/-- C147 does not hold: the connection to a server that answered in vain stays open, and `Close` does not know it. -/
theorem C147_violated_left_open : ∃ b log, newBrokers halfwitNet (joined [[120], [121], [97, 58, 49]]) 0 = (.ok b, log) ∧
    b.open = [1, 3] ∧ b.cache = [(1, (3, -1))] := ⟨_, _, rfl, by decide +kernel, by decide +kernel⟩

/-- C147 does not hold: the connection to a server given under a name other than the one the cluster uses stays open, and `Close` does not know it. -/
theorem C147_violated_alias : ∃ b log, newBrokers goodNet (joined [[108, 58, 49]]) 0 = (.ok b, log) ∧ b.open = [0] ∧ b.cache = [] :=
  ⟨_, _, rfl, by decide +kernel, by decide +kernel⟩

example : ∃ b log, newBrokers goodNet (joined [[97, 58, 49]]) 0 = (.ok b, log) ∧ b.open = [0] ∧ b.cache = [(1, (0, -1))] :=
  ⟨_, _, rfl, by decide +kernel, by decide +kernel⟩

end Healer
