import Verif.Props.Producer2
import Mathlib.Data.List.Induction

/-!
# C106: the node keyed messages of a partition go to
-/

namespace Healer

/-- the nodes producers were made for, for keyed messages of a partition -/
def openedFor (pid : Int32) (log : List Routed) : List Int32 :=
  log.filterMap fun e => match e with
    | .opened p n => if p = pid then some n else none
    | _ => none

/-- an event that is not the making of a producer for keyed messages -/
def Routed.plain : Routed → Prop
  | .opened _ _ => False
  | _ => True

theorem openedFor_plain {pid : Int32} {log : List Routed} {e : Routed} (he : e.plain) : openedFor pid (log ++ [e]) = openedFor pid log := by
  rw [openedFor, List.filterMap_append]
  cases e with
  | opened p n => exact he.elim
  | _ => exact List.append_nil _

theorem openedFor_opened {pid p n : Int32} {log : List Routed} :
    openedFor pid (log ++ [.opened p n]) = openedFor pid log ++ (if p = pid then [n] else []) := by
  rw [openedFor, List.filterMap_append]
  by_cases h : p = pid
  · rw [if_pos h]; simp [openedFor, h]
  · rw [if_neg h]; simp [openedFor, h]

/-- what is required of an event here, given what happened before -/
def SentTo (pre : List Routed) : Routed → Prop
  | .added (some _) (some (pid, node)) _ => ∃ n, node = some n ∧ openedFor pid pre = [n]
  | _ => True

structure Stuck (p : Producer) : Prop where
  fresh : ∀ pid, AMap.get p.keyed pid = none → openedFor pid p.log = []
  kept : ∀ pid i, AMap.get p.keyed pid = some i → ∃ l n, p.lines[i]? = some l ∧ l.partition = pid ∧ l.leader = some n ∧
    openedFor pid p.log = [n]
  events : ∀ pre e post, p.log = pre ++ e :: post → SentTo pre e

theorem snoc_events {P : List Routed → Routed → Prop} {log : List Routed} {e : Routed}
    (h : ∀ pre x post, log = pre ++ x :: post → P pre x) (he : P log e) :
    ∀ pre x post, log ++ [e] = pre ++ x :: post → P pre x := by
  intro pre x post hx
  rcases List.append_eq_append_iff.1 hx with ⟨a, h1, h2⟩ | ⟨a, h1, h2⟩
  · cases a with
    | nil =>
      simp only [List.append_nil, List.nil_append, List.cons.injEq] at h1 h2
      rw [h1, ← h2.1]; exact he
    | cons y a => simp at h2
  · cases a with
    | nil =>
      simp only [List.append_nil, List.nil_append, List.cons.injEq] at h1 h2
      rw [← h1, h2.1]; exact he
    | cons y a =>
      simp only [List.cons_append, List.cons.injEq] at h2
      rw [← h2.1] at h1
      exact h pre x a h1

/-- the producers listed before are still listed, with the same partition and node -/
def LinesKept (ls ls' : List Line) : Prop :=
  ∀ (i : Nat) (l : Line), ls[i]? = some l → ∃ l' : Line, ls'[i]? = some l' ∧ l'.partition = l.partition ∧ l'.leader = l.leader

theorem LinesKept.refl (ls : List Line) : LinesKept ls ls := fun _ l h => ⟨l, h, rfl, rfl⟩

theorem LinesKept.trans {a b c : List Line} (h : LinesKept a b) (g : LinesKept b c) : LinesKept a c := by
  intro i l hl
  obtain ⟨l1, h1, h2, h3⟩ := h i l hl
  obtain ⟨l2, g1, g2, g3⟩ := g i l1 h1
  exact ⟨l2, g1, g2.trans h2, g3.trans h3⟩

theorem Stuck.lines {p q : Producer} (hs : Stuck p) (hk : q.keyed = p.keyed) (hl : LinesKept p.lines q.lines) (hg : q.log = p.log) :
    Stuck q := by
  refine ⟨fun pid h => ?_, fun pid i h => ?_, ?_⟩
  · rw [hg]; rw [hk] at h; exact hs.fresh pid h
  · rw [hk] at h
    obtain ⟨l, n, h1, h2, h3, h4⟩ := hs.kept pid i h
    obtain ⟨l', g1, g2, g3⟩ := hl i l h1
    exact ⟨l', n, g1, g2.trans h2, g3.trans h3, by rw [hg]; exact h4⟩
  · rw [hg]; exact hs.events

theorem Stuck.plain {p q : Producer} (hs : Stuck p) (e : Routed) (he : e.plain) (hw : SentTo p.log e) (hk : q.keyed = p.keyed)
    (hl : LinesKept p.lines q.lines) (hg : q.log = p.log ++ [e]) : Stuck q := by
  refine ⟨fun pid h => ?_, fun pid i h => ?_, ?_⟩
  · rw [hg, openedFor_plain he]; rw [hk] at h; exact hs.fresh pid h
  · rw [hk] at h
    obtain ⟨l, n, h1, h2, h3, h4⟩ := hs.kept pid i h
    obtain ⟨l', g1, g2, g3⟩ := hl i l h1
    exact ⟨l', n, g1, g2.trans h2, g3.trans h3, by rw [hg, openedFor_plain he]; exact h4⟩
  · rw [hg]; exact snoc_events hs.events hw

theorem Stuck.openLine {p : Producer} (hs : Stuck p) (pid node : Int32) (hn : AMap.get p.keyed pid = none) :
    Stuck (p.openLine pid node).2 ∧ (p.openLine pid node).1 = .ok p.lines.length ∧
      AMap.get (p.openLine pid node).2.keyed pid = some p.lines.length := by
  refine ⟨⟨fun q h => ?_, fun q i h => ?_, ?_⟩, rfl, ?_⟩
  · simp only [Producer.openLine] at h ⊢
    rw [AMap.get_set] at h
    split at h
    · cases h
    · rename_i hq
      rw [openedFor_opened, if_neg (fun hh => hq (hh.symm)), hs.fresh q h]; rfl
  · simp only [Producer.openLine] at h ⊢
    rw [AMap.get_set] at h
    split at h
    · rename_i hq
      cases h
      subst hq
      exact ⟨⟨_, some node, false⟩, node, by simp, rfl, rfl, by rw [openedFor_opened, if_pos rfl, hs.fresh _ hn]; rfl⟩
    · rename_i hq
      obtain ⟨l, n, h1, h2, h3, h4⟩ := hs.kept q i h
      exact ⟨l, n, lines_append h1, h2, h3, by rw [openedFor_opened, if_neg (fun hh => hq (hh.symm)), h4]; rfl⟩
  · exact snoc_events hs.events trivial
  · simp only [Producer.openLine, AMap.get_set, if_true]

theorem Stuck.newLine {p : Producer} (hs : Stuck p) (pid : Int32) (connected : Option Err) (hn : AMap.get p.keyed pid = none) :
    Stuck (p.newLine pid connected).2 ∧
      ∀ i, (p.newLine pid connected).1 = .ok i → AMap.get (p.newLine pid connected).2.keyed pid = some i := by
  rw [Producer.newLine]
  split
  · exact ⟨hs, fun i h => (by cases h)⟩
  · rename_i leader _
    split
    · rename_i node _
      obtain ⟨g1, g2, g3⟩ := hs.openLine pid node hn
      exact ⟨g1, fun i h => (by rw [g2] at h; cases h; exact g3)⟩
    · split
      · exact ⟨hs, fun i h => (by cases h)⟩
      · have hs' : Stuck { p with leaders := AMap.set p.leaders leader leader, log := p.log ++ [.connected leader] } :=
          hs.plain (.connected leader) trivial trivial rfl (LinesKept.refl _) rfl
        obtain ⟨g1, g2, g3⟩ := hs'.openLine pid leader hn
        exact ⟨g1, fun i h => (by rw [g2] at h; cases h; exact g3)⟩

theorem Stuck.addMessage {hash : Bytes → UInt32} (key : Option Bytes) (connected : Option Err) :
    ∀ (n : Nat) (p : Producer), Stuck p → ∀ r, p.addMessage hash key connected n = .ok r → Stuck r.2
  | 0, p, hs, r, h => by
    rw [Producer.addMessage] at h
    cases h
    exact hs.plain (.added key none none) trivial (by cases key <;> trivial) rfl (LinesKept.refl _) rfl
  | n + 1, p, hs, r, h => by
    rw [Producer.addMessage] at h
    have finish : ∀ (q : Producer) (i : Nat) (l : Line), Stuck q → q.lines[i]? = some l →
        (∀ k, key = some k → ∃ pid, AMap.get q.keyed pid = some i) →
        (if l.closed = true then Producer.addMessage hash key connected n q
          else .ok (none, { q with log := q.log ++ [.added key (some (l.partition, l.leader)) none] })) = .ok r →
        Stuck r.2 := by
      intro q i l hq hl hk hr
      split at hr
      · exact Stuck.addMessage key connected n q hq r hr
      · cases hr
        refine hq.plain (.added key (some (l.partition, l.leader)) none) trivial ?_ rfl (LinesKept.refl _) rfl
        cases key with
        | none => trivial
        | some k =>
          obtain ⟨pid, hg⟩ := hk k rfl
          obtain ⟨l', m, h1, h2, h3, h4⟩ := hq.kept pid i hg
          rw [hl] at h1
          cases h1
          exact ⟨m, h3, by rw [h2]; exact h4⟩
    cases key with
    | none =>
      simp only [Producer.getLine] at h
      cases hc : p.current with
      | none => simp only [hc] at h; cases h
      | some i =>
        rw [hc] at h
        simp only at h
        cases hl : p.lines[i]? with
        | none => simp only [hl] at h; cases h
        | some l =>
          simp only [hl] at h
          exact finish p i l hs hl (fun k hk => by cases hk) h
    | some k =>
      simp only [Producer.getLine] at h
      cases hp : partitionOf hash k p.partitions with
      | panic => simp only [hp] at h; cases h
      | err e => simp only [hp] at h; cases h
      | ok pid =>
        simp only [hp] at h
        cases hg : AMap.get p.keyed pid with
        | some i =>
          simp only [hg] at h
          cases hl : p.lines[i]? with
          | none => simp only [hl] at h; cases h
          | some l =>
            simp only [hl] at h
            exact finish p i l hs hl (fun k' _ => ⟨pid, hg⟩) h
        | none =>
          simp only [hg] at h
          obtain ⟨g1, g2⟩ := hs.newLine pid connected hg
          rcases hx : p.newLine pid connected with ⟨a, q⟩
          rw [hx] at h g1 g2
          cases a with
          | error e =>
            simp only at h
            cases h
            exact g1.plain (.added (some k) none (some e)) trivial trivial rfl (LinesKept.refl _) rfl
          | ok i =>
            simp only at h g1 g2
            cases hl : q.lines[i]? with
            | none => simp only [hl] at h; cases h
            | some l =>
              simp only [hl] at h
              exact finish q i l g1 hl (fun k' _ => ⟨pid, g2 i rfl⟩) h

theorem Stuck.step {hash : Bytes → UInt32} {p q : Producer} (hs : Stuck p) (a : RouteAct) (h : p.step hash a = .ok q) : Stuck q := by
  cases a with
  | add key connected =>
    simp only [Producer.step] at h
    cases hr : p.addMessage hash key connected 3 with
    | ok r =>
      rw [hr] at h
      cases h
      exact Stuck.addMessage key connected 3 p hs r hr
    | err e => rw [hr] at h; cases h
    | panic => rw [hr] at h; cases h
  | close =>
    simp only [Producer.step] at h
    cases h
    refine hs.plain .closed trivial trivial rfl ?_ rfl
    simp only [Producer.close]
    cases hc : p.current with
    | none => exact fun i l hl => closeLines_get hl
    | some j => exact LinesKept.trans (fun i l hl => closeLine_get hl) (fun i l hl => closeLines_get hl)
  | update answer pick found connected =>
    simp only [Producer.step, Producer.update] at h
    cases answer with
    | error e => cases h; exact hs
    | ok r =>
      simp only at h
      cases he : r.error with
      | some e => simp only [he] at h; cases h; exact hs
      | none =>
        cases ht : r.topics with
        | nil => simp only [he, ht] at h; cases h
        | cons t ts =>
          simp only [he, ht] at h
          cases hp : pickPartition pick t.partitions with
          | err e => simp only [hp] at h; cases h
          | panic => simp only [hp] at h; cases h
          | ok pid =>
            simp only [hp] at h
            cases h
            have hs' : Stuck { p with partitions := t.partitions, log := p.log ++ [.metadata t.partitions] } :=
              hs.plain (.metadata t.partitions) trivial trivial rfl (LinesKept.refl _) rfl
            cases createLeader found connected with
            | error e => exact hs'
            | ok leader =>
              refine hs'.lines rfl ?_ rfl
              intro i l hl
              simp only [replaceCurrent]
              cases p.current with
              | none => exact ⟨l, lines_append hl, rfl, rfl⟩
              | some j =>
                obtain ⟨l1, f1, f2, f3⟩ := closeLine_get (j := j) hl
                exact ⟨l1, lines_append f1, f2, f3⟩

theorem Stuck.run {hash : Bytes → UInt32} : ∀ (as : List RouteAct) (p q : Producer), Stuck p → p.run hash as = .ok q → Stuck q
  | [], _, _, hs, h => by rw [Producer.run] at h; cases h; exact hs
  | a :: as, p, q, hs, h => by
    rw [Producer.run] at h
    cases ha : p.step hash a with
    | ok p' =>
      rw [ha] at h
      exact Stuck.run as p' q (hs.step a ha) h
    | err e => rw [ha] at h; cases h
    | panic => rw [ha] at h; cases h

theorem stuck_run {hash : Bytes → UInt32} {as : List RouteAct} {q : Producer} (h : Producer.run hash as {} = .ok q) : Stuck q :=
  Stuck.run as {} q ⟨fun _ _ => rfl, fun _ _ h => (nomatch h), fun pre e post h => (by simp at h)⟩ h

/-- what a list of partitions says of the leader of one of them -/
def listedLeader (pid : Int32) (ps : List PartitionMetadataInfo) : Option Int32 :=
  (ps.find? fun x => x.partitionID = pid).map PartitionMetadataInfo.leader

theorem opened_mem {pid n : Int32} {log : List Routed} (h : openedFor pid log = [n]) : ∃ a b, log = a ++ .opened pid n :: b := by
  have hm : n ∈ openedFor pid log := by rw [h]; exact List.mem_singleton.2 rfl
  obtain ⟨e, he, hx⟩ := List.mem_filterMap.1 hm
  cases e with
  | opened p m =>
    simp only at hx
    split at hx
    · rename_i hp
      cases hx
      subst hp
      exact List.append_of_mem he
    · cases hx
  | _ => cases hx

/-- C106 does not hold, ever: whatever the refreshes report, all the messages with a key that a partition's producer
accepts during the life of a `Producer` go to one and the same node. -/
theorem C106_violated_forever (hash : Bytes → UInt32) (as : List RouteAct) (q : Producer) (h : Producer.run hash as {} = .ok q)
    (k₁ k₂ : Bytes) (pid : Int32) (n₁ n₂ : Option Int32) (r₁ r₂ : Option Err)
    (h₁ : .added (some k₁) (some (pid, n₁)) r₁ ∈ q.log) (h₂ : .added (some k₂) (some (pid, n₂)) r₂ ∈ q.log) : n₁ = n₂ := by
  have key : ∀ {k n r}, .added (some k) (some (pid, n)) r ∈ q.log → ∃ m, n = some m ∧ openedFor pid q.log = [m] := by
    intro k n r hm
    obtain ⟨a, b, hab⟩ := List.append_of_mem hm
    obtain ⟨m, h1, h2⟩ := (stuck_run h).events a _ b hab
    refine ⟨m, h1, ?_⟩
    have hsub : ∃ t, openedFor pid q.log = m :: t := by
      rw [hab, openedFor, List.filterMap_append]
      rw [openedFor] at h2
      rw [h2]
      exact ⟨_, rfl⟩
    obtain ⟨t, ht⟩ := hsub
    cases hg : AMap.get q.keyed pid with
    | none => rw [(stuck_run h).fresh pid hg] at ht; cases ht
    | some i =>
      obtain ⟨_, n', -, -, -, h4⟩ := (stuck_run h).kept pid i hg
      rw [h4] at ht ⊢
      cases ht
      rfl
  obtain ⟨m₁, e₁, f₁⟩ := key h₁
  obtain ⟨m₂, e₂, f₂⟩ := key h₂
  rw [f₁] at f₂
  cases f₂
  rw [e₁, e₂]

/-- C106, in part: a message with a key goes to the node that was listed as leader of its partition, without an error,
in the newest metadata at the time the first such message was added; so while the metadata learned since lists
the same leader, to the leader listed.
Missing for the full statement: a leader that moves (`C106_violated`, `C106_violated_forever`). -/
theorem C106_first_leader_partial (hash : Bytes → UInt32) (as : List RouteAct) (q : Producer) (h : Producer.run hash as {} = .ok q)
    (pre post : List Routed) (k : Bytes) (pid : Int32) (node : Option Int32) (r : Option Err)
    (he : q.log = pre ++ .added (some k) (some (pid, node)) r :: post) :
    ∃ a b n, pre = a ++ .opened pid n :: b ∧ node = some n ∧
      (∃ x ∈ latest a, x.partitionID = pid ∧ x.errorCode = 0 ∧ x.leader = n) ∧
      ((∀ qs, .metadata qs ∈ b → listedLeader pid qs = some n) → listedLeader pid (latest pre) = some n) := by
  obtain ⟨n, h1, h2⟩ := (stuck_run h).events _ _ _ he
  obtain ⟨a, b, hab⟩ := opened_mem h2
  have hq : q.log = a ++ .opened pid n :: (b ++ .added (some k) (some (pid, node)) r :: post) := by
    rw [he, hab, List.append_assoc]; rfl
  obtain ⟨⟨x, hx1, hx2, hx3⟩, -⟩ := C52_leader hash as q h _ _ _ _ hq
  refine ⟨a, b, n, hab, h1, ⟨x, List.mem_of_find?_eq_some hx1, by simpa using List.find?_some hx1, hx2, hx3⟩, fun hb => ?_⟩
  have ha : listedLeader pid (latest (a ++ [.opened pid n])) = some n := by
    rw [latest_snoc]
    simp only [listedLeader, hx1, Option.map_some, hx3]
  rw [hab, List.append_cons]
  clear hab hq
  induction b using List.reverseRecOn with
  | nil => rw [List.append_nil]; exact ha
  | append_singleton b e ih =>
    rw [← List.append_assoc, latest_snoc]
    cases e with
    | metadata qs => exact hb qs (by simp)
    | _ => exact ih fun qs hm => hb qs (List.mem_append_left _ hm)

example : routes [learn two, .add (some [3]) none, learn two, .add (some [3]) none] =
    some ([.metadata two, .connected 2] ++ .opened 1 2 :: [.added (some [3]) (some (1, some 2)) none, .metadata two] ++
      .added (some [3]) (some (1, some 2)) none :: []) ∧
    (∀ qs, .metadata qs ∈ [Routed.added (some [3]) (some (1, some 2)) none, .metadata two] → listedLeader 1 qs = some 2) :=
  ⟨by decide +kernel, fun qs h => by
    have : qs = two := by simpa using h
    rw [this]; decide +kernel⟩

end Healer
