import Verif.Model.Position
import Verif.Props.Consumer3

/-!
# C122: where a partition consumer starts
-/

namespace Healer

/-- The position a consumer told to start at `offset` should start from: `offset` itself, unless it is one of the
two values for "the end" and "the beginning"; then the group's committed position if there is one, and otherwise the first answer to the
question where the end (or the beginning) is. -/
inductive StartsAt (mode : CommitMode) (offset committed : Int64) (answers : List (Except Err Int64)) : Int64 → Prop
  | explicit (h : offset ≠ -1) (h' : offset ≠ -2) : StartsAt mode offset committed answers offset
  | committed (h : offset = -1 ∨ offset = -2) (hm : mode ≠ .none) (hc : 0 ≤ committed.toInt) : StartsAt mode offset committed answers committed
  | lookup (h : offset = -1 ∨ offset = -2) (hc : mode = .none ∨ committed.toInt < 0) (failed : List (Except Err Int64)) (o : Int64)
      (rest : List (Except Err Int64)) (ha : answers = failed ++ .ok o :: rest) (hf : ∀ a ∈ failed, ∀ x, a ≠ .ok x) :
      StartsAt mode offset committed answers o

/-- The positions of the fetch requests. -/
def fetchPositions : List Seen → List Int64
  | [] => []
  | .fetch o _ :: l => o :: fetchPositions l
  | _ :: l => fetchPositions l

theorem fetchPositions_append (l l' : List Seen) : fetchPositions (l ++ l') = fetchPositions l ++ fetchPositions l' := by
  induction l with
  | nil => rfl
  | cons a l ih => cases a <;> simp [fetchPositions, ih]

/-- nothing was fetched yet, or the first fetch was at `o` -/
def StartInv (o : Int64) (s : SC) : Prop :=
  (fetchPositions s.log = [] ∧ s.offset = o ∧ (s.loop = .top ∨ s.loop = .done)) ∨ (fetchPositions s.log).head? = some o

theorem head_append {α : Type} {l l' : List α} {o : α} (h : l.head? = some o) : (l ++ l').head? = some o := by
  cases l with
  | nil => cases h
  | cons a l => exact h

/-- every step only adds to the log -/
theorem step_log (env : ConsumerEnv) (a : ConsumerAct) (s s' : SC) (h : s.step env a = some s') : ∃ l, s'.log = s.log ++ l := by
  have herr : ∀ e ans, ∃ l, (onError e ans s).log = s.log ++ l := by
    intro e ans
    unfold onError
    simp only
    split
    · exact ⟨_, rfl⟩
    · split <;> exact ⟨[], by simp⟩
  cases a with
  | next answer =>
    simp only [SC.step, nextMessage] at h
    repeat' split at h
    all_goals first | (cases h; done) | (cases h; first | exact herr _ _ | exact ⟨_, rfl⟩ | exact ⟨[], by simp⟩)
  | leader found =>
    simp only [SC.step] at h
    split at h
    · cases h
      split <;> exact ⟨[], by simp⟩
    · cases h
  | commitStep i ok =>
    simp only [SC.step] at h
    split at h
    · rename_i c hc
      cases h
      obtain ⟨-, -, -, -, f3⟩ := commitNext_facts env c ok s
      rcases f3 with f3 | ⟨m, g, o', f3⟩
      · exact ⟨[], by simp [f3]⟩
      · exact ⟨_, by simp [f3]; rfl⟩
    · cases h
  | _ =>
    simp only [SC.step] at h
    repeat' split at h
    all_goals first | (cases h; done) | (cases h; first | exact ⟨_, rfl⟩ | exact ⟨[], by simp⟩)

theorem startInv_step (env : ConsumerEnv) (o : Int64) (a : ConsumerAct) (s s' : SC) (hi : StartInv o s) (h : s.step env a = some s') :
    StartInv o s' := by
  rcases hi with ⟨h1, h2, h3⟩ | h1
  · cases a with
    | fetchFailed =>
      rcases h3 with h3 | h3 <;> simp only [SC.step, h3] at h
      · split at h
        · cases h; exact .inl ⟨h1, h2, .inr rfl⟩
        · cases h
          refine .inr ?_
          simp [fetchPositions_append, h1, fetchPositions, h2]
      · cases h
    | fetched ms =>
      rcases h3 with h3 | h3 <;> simp only [SC.step, h3] at h
      · split at h
        · cases h
        · cases h
          refine .inr ?_
          simp [fetchPositions_append, h1, fetchPositions, h2]
      · cases h
    | noticed => rcases h3 with h3 | h3 <;> simp only [SC.step, h3] at h <;> cases h
    | next answer => rcases h3 with h3 | h3 <;> simp only [SC.step, nextMessage, h3] at h <;> cases h
    | advance => rcases h3 with h3 | h3 <;> simp only [SC.step, h3] at h <;> cases h
    | leader found => rcases h3 with h3 | h3 <;> simp only [SC.step, h3] at h <;> cases h
    | receive =>
      simp only [SC.step] at h
      split at h
      · cases h
        exact .inl ⟨by simp [fetchPositions_append, h1, fetchPositions], h2, h3⟩
      · cases h
    | commit =>
      simp only [SC.step] at h
      split at h
      · cases h
      · cases h; exact .inl ⟨h1, h2, h3⟩
    | commitStep i ok =>
      simp only [SC.step] at h
      split at h
      · rename_i c hc
        cases h
        have hk := commitNext_keeps env c ok s
        obtain ⟨f0, -, -, -, f3⟩ := commitNext_facts env c ok s
        have hoff : (commitNext env c ok s).2.offset = s.offset := by
          unfold commitNext
          cases c with
          | start => simp only; split <;> rfl
          | read o => simp only; split <;> (try rfl); split <;> rfl
          | _ => rfl
        refine .inl ⟨?_, hoff.trans h2, by rw [show ({ (commitNext env c ok s).2 with commits := setCommit s.commits i (commitNext env c ok s).1 } : SC).loop = _ from hk.1]; exact h3⟩
        show fetchPositions (commitNext env c ok s).2.log = []
        rcases f3 with f3 | ⟨m, g, o', f3⟩
        · rw [f3]; exact h1
        · rw [f3, fetchPositions_append, h1]; rfl
      · cases h
    | membership m g =>
      cases h
      exact .inl ⟨by simp [fetchPositions_append, h1, fetchPositions], h2, h3⟩
    | cancel => cases h; exact .inl ⟨h1, h2, h3⟩
    | stop => cases h; exact .inl ⟨h1, h2, h3⟩
  · obtain ⟨l, hl⟩ := step_log env a s s' h
    right
    rw [hl, fetchPositions_append]
    exact head_append h1

theorem startInv_run (env : ConsumerEnv) (o : Int64) (as : List ConsumerAct) : ∀ s s', StartInv o s → s.run env as = some s' → StartInv o s' := by
  induction as with
  | nil => intro s s' hi h; cases h; exact hi
  | cons a as ih =>
    intro s s' hi h
    simp only [SC.run] at h
    rcases ha : s.step env a with _ | s1
    · rw [ha] at h; cases h
    · rw [ha] at h
      exact ih s1 s' (startInv_step env o a s s1 hi ha) h

theorem initLookups_found (answers : List (Except Err Int64)) (o : Int64) (h : (initLookups answers o).1 = true) :
    ∃ failed rest, answers = failed ++ .ok (initLookups answers o).2 :: rest ∧ ∀ a ∈ failed, ∀ x, a ≠ .ok x := by
  induction answers generalizing o with
  | nil => cases h
  | cons a as ih =>
    cases a with
    | ok x => exact ⟨[], as, rfl, by simp⟩
    | error e =>
      obtain ⟨f, r, h1, h2⟩ := ih (-1) h
      refine ⟨.error e :: f, r, ?_, ?_⟩
      · simp only [initLookups, List.cons_append]
        rw [← h1]
      · intro a ha x
        rcases List.mem_cons.1 ha with rfl | ha
        · simp
        · exact h2 a ha x

/-- C122: the first thing a consumer fetches is the message at the position it should start from: the one it was told; or, if it was told to
start from the end or the beginning, the committed one, or else the one it was given when it asked. -/
theorem C122_first_fetch (env : ConsumerEnv) (mode : CommitMode) (offset committed : Int64) (answers : List (Except Err Int64)) (n : Int32)
    (as : List ConsumerAct) (s' : SC) (h : (consumeStart mode offset committed answers n).run env as = some s') :
    ∀ o, (fetchPositions s'.log).head? = some o → StartsAt mode offset committed answers o := by
  intro o ho
  have key : ∀ s : SC, s.log = [] → s.loop = .top → s.run env as = some s' → o = s.offset := by
    intro s hl ht hr
    rcases startInv_run env s.offset as s s' (.inl ⟨by rw [hl]; rfl, rfl, .inl ht⟩) hr with ⟨h1, -⟩ | h1
    · rw [h1] at ho; cases ho
    · rw [h1] at ho; cases ho; rfl
  have hz : ∀ x : Int64, (x ≥ 0) ↔ 0 ≤ x.toInt := fun x => Int64.le_iff_toInt_le
  unfold consumeStart at h
  simp only at h
  by_cases hc : mode ≠ .none ∧ (offset = -1 ∨ offset = -2) ∧ committed ≥ 0
  · simp only [if_pos hc] at h
    have h12 : ¬ (committed = -1 ∨ committed = -2) := by
      have := (hz committed).1 hc.2.2
      rintro (rfl | rfl) <;> exact absurd this (by decide)
    rw [if_neg h12] at h
    have := key _ rfl rfl h
    rw [this]
    exact .committed hc.2.1 hc.1 ((hz _).1 hc.2.2)
  · simp only [if_neg hc] at h
    by_cases h12 : offset = -1 ∨ offset = -2
    · rw [if_pos h12] at h
      have hcm : mode = .none ∨ committed.toInt < 0 := by
        by_cases hm : mode = .none
        · exact .inl hm
        · right
          have : ¬ committed ≥ 0 := fun hge => hc ⟨hm, h12, hge⟩
          rw [hz] at this
          omega
      cases hf : (initLookups answers offset).1 with
      | true =>
        obtain ⟨f, r, h1, h2⟩ := initLookups_found answers offset hf
        have := key _ rfl rfl h
        rw [this]
        exact .lookup h12 hcm f _ r h1 h2
      | false =>
        have hno := C121_no_fetch_partial env as _ s' (by simp [hf]) h
        have hnil : ∀ l : List Seen, l.filter Seen.isFetch = [] → fetchPositions l = [] := by
          intro l
          induction l with
          | nil => intro; rfl
          | cons a l ih => cases a with
            | fetch o n => intro h; simp [Seen.isFetch] at h
            | _ => exact ih
        rw [hnil _ (by rw [hno]; rfl)] at ho
        cases ho
    · rw [if_neg h12] at h
      have := key _ rfl rfl h
      rw [this]
      exact .explicit (fun e => h12 (.inl e)) (fun e => h12 (.inr e))

example : ∃ s', (consumeStart .own (-2) (-1) [.error .timeout, .ok 3] 100).run { mode := .own } [.fetchFailed] = some s' ∧
    fetchPositions s'.log = [3] := ⟨_, rfl, rfl⟩

/-- C122: the committed position is the one the coordinator gives for the consumer's topic and partition, if it lists each topic and each
of its partitions once; a negative one leaves the position as it was. -/
theorem C122_committed (topic : Bytes) (pid : Int32) (r : OffsetFetchResponse) (offset : Int64) (hn : (r.topics.map Prod.fst).Nodup)
    (ps : List FetchedOffset) (ht : (topic, ps) ∈ r.topics) (hp : (ps.map FetchedOffset.partitionID).Nodup) (p : FetchedOffset) (hm : p ∈ ps)
    (hid : p.partitionID = pid) :
    committedPosition topic pid r offset = if 0 ≤ p.offset.toInt then p.offset else offset := by
  have hfind : ps.find? (fun q => decide (q.partitionID = pid)) = some p := by
    clear ht
    induction ps with
    | nil => cases hm
    | cons q ps ih =>
      simp only [List.map_cons, List.nodup_cons] at hp
      by_cases hq : q.partitionID = pid
      · rw [List.find?_cons_of_pos (by simpa using hq)]
        rcases List.mem_cons.1 hm with rfl | hm
        · rfl
        · exact absurd (List.mem_map.2 ⟨p, hm, by rw [hid, hq]⟩) hp.1
      · rw [List.find?_cons_of_neg (by simpa using hq)]
        rcases List.mem_cons.1 hm with rfl | hm
        · exact absurd hid hq
        · exact ih hp.2 hm
  unfold committedPosition
  generalize r.topics = ts at hn ht
  have hother : ∀ (ts : List (Bytes × List FetchedOffset)) (o : Int64), topic ∉ ts.map Prod.fst →
      ts.foldl (committedStep topic pid) o = o := by
    intro ts
    induction ts with
    | nil => intro o _; rfl
    | cons t ts ih =>
      intro o h
      simp only [List.map_cons, List.mem_cons, not_or] at h
      rw [List.foldl_cons, committedStep, if_pos (Ne.symm h.1)]
      exact ih o h.2
  induction ts generalizing offset with
  | nil => cases ht
  | cons t ts ih =>
    simp only [List.map_cons, List.nodup_cons] at hn
    rw [List.foldl_cons]
    rcases List.mem_cons.1 ht with rfl | ht
    · rw [hother ts _ hn.1]
      simp only [committedStep, ne_eq, not_true_eq_false, if_false, hfind]
      have : (p.offset ≥ 0) ↔ 0 ≤ p.offset.toInt := Int64.le_iff_toInt_le
      by_cases hz : 0 ≤ p.offset.toInt
      · rw [if_pos (this.2 hz), if_pos hz]
      · rw [if_neg (fun h => hz (this.1 h)), if_neg hz]
    · have : t.1 ≠ topic := fun e => hn.1 (e ▸ List.mem_map.2 ⟨_, ht, rfl⟩)
      rw [committedStep, if_pos this]
      exact ih offset hn.2 ht

example : committedPosition [116] 1 ⟨0, [([117], [⟨1, 9, [], 0⟩]), ([116], [⟨0, 5, [], 0⟩, ⟨1, 7, [], 0⟩])]⟩ (-2) = 7 ∧
    committedPosition [116] 1 ⟨0, [([116], [⟨1, -1, [], 0⟩])]⟩ (-2) = -2 := by decide +kernel

/-- C122: when the consumer asks for the beginning or the end, it takes the position given for its topic, if that is the first of the topic's
partitions in the answer (there is one, as one was asked for), or an error if the answer carries one.
Missing for the full statement: answers without the topic or partition (`C122_violated_crash`), and answers in which another partition comes
first (`C122_violated_other_partition`). -/
theorem C122_lookup_partial (topic : Bytes) (r : OffsetsResponse) (p : PartitionOffset) (ps : List PartitionOffset)
    (h : r.topicPartitionOffsets.get topic = some (p :: ps)) :
    (∀ e, r.error = some e → lookupAnswer topic r = .err e) ∧
    (r.error = none → p.oldStyleOffsets = [] → lookupAnswer topic r = .ok p.offset) ∧
    (∀ o, r.error = none → p.oldStyleOffsets = [o] → lookupAnswer topic r = .ok o) := by
  unfold lookupAnswer
  refine ⟨fun e he => by rw [he], fun he ho => ?_, fun o he ho => ?_⟩
  · rw [he]
    simp only [h, PartitionOffset.getOffset, ho]
  · rw [he]
    simp only [h, PartitionOffset.getOffset, ho]

example : lookupAnswer [116] ⟨0, 0, [([116], [⟨1, 0, [], -1, 42⟩])]⟩ = .ok 42 := by decide +kernel

/-- C122 does not hold when the answer leaves the topic out: the consumer crashes. -/
theorem C122_violated_crash : lookupAnswer [116] ⟨0, 0, []⟩ = .panic ∧ lookupAnswer [116] ⟨0, 0, [([116], [])]⟩ = .panic := by decide +kernel

/-- C122 does not hold when the answer lists another partition first: its position is taken for partition 1. -/
theorem C122_violated_other_partition :
    (⟨1, 0, [], -1, 42⟩ : PartitionOffset) ∈ ([⟨0, 0, [], -1, 7⟩, ⟨1, 0, [], -1, 42⟩] : List PartitionOffset) ∧
    lookupAnswer [116] ⟨0, 0, [([116], [⟨0, 0, [], -1, 7⟩, ⟨1, 0, [], -1, 42⟩])]⟩ = .ok 7 := by decide +kernel

end Healer
