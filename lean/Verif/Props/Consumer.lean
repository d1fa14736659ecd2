import Verif.Model.Consumer
import Mathlib.Data.List.Induction

/-!
# C37-C43: the partition consumer
-/

namespace Healer

/-! ## Specification -/

/-- The position after what was seen: one past the last message handed over, or what the broker gave when asked
(-1 if it gave an error). -/
def position (start : Int64) (log : List Seen) : Int64 :=
  log.foldl (fun p e => match e with
    | .put m => m.offset + 1
    | .lookup _ (.ok o) => o
    | .lookup _ (.error _) => -1
    | _ => p) start

/-- Every event of the log is right given what was seen before it. -/
def Judged (ok : List Seen → Seen → Prop) (log : List Seen) : Prop :=
  ∀ pre e post, log = pre ++ e :: post → ok pre e

theorem Judged.nil (ok : List Seen → Seen → Prop) : Judged ok [] := by
  intro pre e post h
  simp at h

theorem Judged.snoc {ok : List Seen → Seen → Prop} {log : List Seen} (h : Judged ok log) {e : Seen} (he : ok log e) :
    Judged ok (log ++ [e]) := by
  intro pre x post heq
  rcases List.append_eq_append_iff.1 heq with ⟨a, h1, h2⟩ | ⟨a, h1, h2⟩
  · cases a with
    | nil => simp at h1 h2; rw [← h2.1, h1]; exact he
    | cons y a => simp at h2
  · cases a with
    | nil => simp at h1 h2; rw [h2.1, ← h1]; exact he
    | cons y a =>
      rw [List.cons_append, List.cons.injEq] at h2
      exact h pre x a (by rw [h1, h2.1])

/-- the fetch starts at the position -/
def FetchOk (start : Int64) (pre : List Seen) : Seen → Prop
  | .fetch o _ => o = position start pre
  | _ => True

/-! ## Steps -/

/-- what the loop will have as position once the message in hand is accounted for -/
def SC.here (s : SC) : Int64 :=
  match s.loop with
  | .sent m _ => m.offset + 1
  | _ => s.offset

theorem position_snoc (start : Int64) (log : List Seen) (e : Seen) : position start (log ++ [e]) =
    (match e with
      | .put m => m.offset + 1
      | .lookup _ (.ok o) => o
      | .lookup _ (.error _) => -1
      | _ => position start log) := by
  simp [position, List.foldl_append]

/-- The ways a step can change a consumer.  `feed o ms` holds for what is decoded from a fetch at `o`. -/
inductive Change (env : ConsumerEnv) (feed : Int64 → List FullMessage → Prop) : SC → SC → Prop where
  /-- nothing but flags and the place in the loop -/
  | quiet (s s' : SC) (ho : s'.offset = s.offset) (hc : s'.commits = s.commits) (hoc : s'.offsetCommited = s.offsetCommited)
      (hl : s'.log = s.log) (hm : s'.memberID = s.memberID ∧ s'.generationID = s.generationID)
      (hat : (∀ m ms, s.loop ≠ .sent m ms) ∧ (∀ m ms, s'.loop ≠ .sent m ms) ∨ s'.loop = s.loop)
      (hin : ∀ ms, s'.loop = .inner ms → s.loop = .inner ms) : Change env feed s s'
  | fetch (s s' : SC) (hs : s' = { s with loop := s'.loop, log := s.log ++ [.fetch s.offset s.fetchMaxBytes] })
      (htop : s.loop = .top) (hat : ∀ m ms, s'.loop ≠ .sent m ms) (hms : ∀ ms, s'.loop = .inner ms → feed s.offset ms) : Change env feed s s'
  | put (s : SC) (m : Message) (x : FullMessage) (ms : List FullMessage) (q : List Message) (hin : s.loop = .inner (x :: ms))
      (hx : x.message = some m) (he : x.error = none) : Change env feed s { s with loop := .sent m ms, queue := q, log := s.log ++ putSeen env m }
  | advance (s : SC) (m : Message) (ms : List FullMessage) (hs : s.loop = .sent m ms) :
      Change env feed s { s with offset := m.offset + 1, loop := .inner ms }
  | lookup (s s' : SC) (a : Except Err Int64) (b : Bool) (hin : ∀ m ms, s.loop ≠ .sent m ms)
      (ho : s'.offset = offsetOrMinusOne a) (htop : s'.loop = .top) (hlog : s'.log = s.log ++ [.lookup b a])
      (hc : s'.commits = s.commits) (hoc : s'.offsetCommited = s.offsetCommited)
      (hm : s'.memberID = s.memberID ∧ s'.generationID = s.generationID) : Change env feed s s'
  | got (s : SC) (m : Message) (q : List Message) : Change env feed s { s with queue := q, log := s.log ++ [.got m] }
  | spawn (s : SC) (h : env.autoOnly = true → s.commits = []) : Change env feed s { s with commits := s.commits ++ [.start] }
  | commit (s s' : SC) (i : Nat) (c : CommitAt) (ok : Bool) (hc : s.commits[i]? = some c) (ho : s'.offset = s.offset)
      (hl : s'.loop = s.loop) (hm : s'.memberID = s.memberID ∧ s'.generationID = s.generationID)
      (hcs : s'.commits = setCommit s.commits i (commitNext env c ok s).1)
      (hoc : s'.offsetCommited = (commitNext env c ok s).2.offsetCommited)
      (hlog : s'.log = (commitNext env c ok s).2.log) : Change env feed s s'
  | member (s : SC) (m : Bytes) (g : Int32) :
      Change env feed s { s with memberID := m, generationID := g, log := s.log ++ [.member m g] }

theorem onError_change (env : ConsumerEnv) (feed : Int64 → List FullMessage → Prop) (e : Err) (answer : Except Err Int64) (s : SC) (ms : List FullMessage)
    (hl : s.loop = .inner ms) : Change env feed s (onError e answer s) := by
  have hns : ∀ m ms, s.loop ≠ .sent m ms := by rw [hl]; intro _ _ h; cases h
  unfold onError
  simp only
  split
  · exact .lookup _ _ answer s.fromBeginning hns rfl rfl rfl rfl rfl ⟨rfl, rfl⟩
  · split <;> exact .quiet _ _ rfl rfl rfl rfl ⟨rfl, rfl⟩ (.inl ⟨hns, by intro _ _ h; cases h⟩) (by intro _ h; cases h)

/-- what a step of `CommitOffset` leaves alone, and what it may append to the log -/
theorem commitNext_facts (env : ConsumerEnv) (c : CommitAt) (ok : Bool) (s : SC) :
    (commitNext env c ok s).2.offset = s.offset ∧ (commitNext env c ok s).2.loop = s.loop ∧
    (commitNext env c ok s).2.memberID = s.memberID ∧ (commitNext env c ok s).2.generationID = s.generationID ∧
    ((commitNext env c ok s).2.log = s.log ∨ ∃ m g o, (commitNext env c ok s).2.log = s.log ++ [.commit m g o ok]) := by
  unfold commitNext
  cases c with
  | start => simp only; split <;> exact ⟨rfl, rfl, rfl, rfl, .inl rfl⟩
  | differs => exact ⟨rfl, rfl, rfl, rfl, .inl rfl⟩
  | read o =>
    simp only
    split
    · exact ⟨rfl, rfl, rfl, rfl, .inl rfl⟩
    · exact ⟨rfl, rfl, rfl, rfl, .inr ⟨_, _, _, rfl⟩⟩
    · split <;> exact ⟨rfl, rfl, rfl, rfl, .inl rfl⟩
  | checked o => exact ⟨rfl, rfl, rfl, rfl, .inr ⟨_, _, _, rfl⟩⟩
  | acknowledged o => exact ⟨rfl, rfl, rfl, rfl, .inl rfl⟩

theorem step_change (env : ConsumerEnv) (feed : Int64 → List FullMessage → Prop) (a : ConsumerAct) (s s' : SC)
    (hf : ∀ ms, a = .fetched ms → feed s.offset ms) (h : s.step env a = some s') : Change env feed s s' := by
  cases a with
  | fetchFailed =>
    simp only [SC.step] at h
    split at h
    · rename_i hl
      split at h
      · cases h
        exact .quiet _ _ rfl rfl rfl rfl ⟨rfl, rfl⟩ (.inl ⟨by rw [hl]; simp, by simp⟩) (by simp)
      · cases h
        exact .fetch _ _ rfl hl (by simp [hl]) (by simp [hl])
    · cases h
  | fetched ms =>
    simp only [SC.step] at h
    split at h
    · rename_i hl
      split at h
      · cases h
      · cases h
        exact .fetch _ _ rfl hl (by simp) (fun ms' h => by cases h; exact hf _ rfl)
    · cases h
  | noticed =>
    simp only [SC.step] at h
    split at h
    · rename_i hl
      split at h
      · cases h
        exact .quiet _ _ rfl rfl rfl rfl ⟨rfl, rfl⟩ (.inl ⟨by rw [hl]; simp, by simp⟩) (by simp)
      · cases h
    · cases h
  | next answer =>
    simp only [SC.step, nextMessage] at h
    split at h
    · rename_i hl
      cases h
      exact .quiet _ _ rfl rfl rfl rfl ⟨rfl, rfl⟩ (.inl ⟨by rw [hl]; simp, by simp⟩) (by simp)
    · rename_i x ms hl
      split at h
      · cases h
        exact onError_change env feed _ answer s _ hl
      · cases h
      · rename_i m _ hm
        split at h
        · cases h
          exact .put s m x ms s.queue hl hm ‹_›
        · split at h
          · cases h
            exact .put s m x ms _ hl hm ‹_›
          · cases h
    · cases h
  | advance =>
    simp only [SC.step] at h
    split at h
    · rename_i m ms hl
      cases h
      exact .advance s m ms hl
    · cases h
  | leader found =>
    simp only [SC.step] at h
    split at h
    · rename_i hl
      cases h
      split
      · exact .quiet _ _ rfl rfl rfl rfl ⟨rfl, rfl⟩ (.inl ⟨by rw [hl]; simp, by simp⟩) (by simp)
      · exact .quiet _ _ rfl rfl rfl rfl ⟨rfl, rfl⟩ (.inr rfl) (fun _ h => h)
    · cases h
  | receive =>
    simp only [SC.step] at h
    split at h
    · cases h
      exact .got s _ _
    · cases h
  | commit =>
    simp only [SC.step] at h
    split at h
    · cases h
    · rename_i hn
      cases h
      refine .spawn s fun ha => ?_
      by_cases hc : s.commits = []
      · exact hc
      · exact absurd ⟨ha, hc⟩ hn
  | commitStep i ok =>
    simp only [SC.step] at h
    split at h
    · rename_i c hc
      cases h
      obtain ⟨f1, f2, f3, f4, -⟩ := commitNext_facts env c ok s
      exact .commit s _ i c ok hc f1 f2 ⟨f3, f4⟩ rfl rfl rfl
    · cases h
  | membership m g =>
    simp only [SC.step] at h
    cases h
    exact .member s m g
  | cancel =>
    simp only [SC.step] at h
    cases h
    exact .quiet _ _ rfl rfl rfl rfl ⟨rfl, rfl⟩ (.inr rfl) (fun _ h => h)
  | stop =>
    simp only [SC.step] at h
    cases h
    exact .quiet _ _ rfl rfl rfl rfl ⟨rfl, rfl⟩ (.inr rfl) (fun _ h => h)

/-- What is decoded from each fetch of a run satisfies `feed`. -/
def Fed (feed : Int64 → List FullMessage → Prop) (env : ConsumerEnv) : List ConsumerAct → SC → Prop
  | [], _ => True
  | a :: as, s => (∀ ms, a = .fetched ms → feed s.offset ms) ∧ ∀ s1, s.step env a = some s1 → Fed feed env as s1

theorem Fed.any (env : ConsumerEnv) : ∀ (as : List ConsumerAct) (s : SC), Fed (fun _ _ => True) env as s
  | [], _ => trivial
  | _ :: as, _ => ⟨fun _ _ => trivial, fun s1 _ => Fed.any env as s1⟩

/-- Induction over the steps of a run. -/
theorem run_induction {env : ConsumerEnv} {feed : Int64 → List FullMessage → Prop} {P : SC → Prop}
    (hstep : ∀ s s', Change env feed s s' → P s → P s') :
    ∀ (as : List ConsumerAct) (s s' : SC), Fed feed env as s → s.run env as = some s' → P s → P s'
  | [], s, s', _, h, hp => by simp only [SC.run, Option.some.injEq] at h; exact h ▸ hp
  | a :: as, s, s', hf, h, hp => by
    simp only [SC.run] at h
    cases h1 : s.step env a with
    | none => rw [h1] at h; cases h
    | some s1 =>
      rw [h1] at h
      exact run_induction hstep as s1 s' (hf.2 s1 h1) h (hstep s s1 (step_change env feed a s s1 hf.1 h1) hp)

theorem here_of_not_sent {s : SC} (h : ∀ m ms, s.loop ≠ .sent m ms) : s.here = s.offset := by
  unfold SC.here
  split
  · exact absurd ‹_› (h _ _)
  · rfl

theorem here_of_eq {s s' : SC} (h : s'.loop = s.loop) (ho : s'.offset = s.offset) : s'.here = s.here := by
  unfold SC.here
  rw [h, ho]

/-! ## C37 -/

theorem position_put (env : ConsumerEnv) (start : Int64) (log : List Seen) (m : Message) :
    position start (log ++ putSeen env m) = m.offset + 1 := by
  unfold putSeen
  split
  · rw [show log ++ [Seen.put m, Seen.got m] = (log ++ [.put m]) ++ [.got m] by simp, position_snoc, position_snoc]
  · rw [position_snoc]

/-- the log only grows by events judged -/
theorem Judged.put {ok : List Seen → Seen → Prop} {log : List Seen} (h : Judged ok log) (env : ConsumerEnv) (m : Message)
    (h1 : ok log (.put m)) (h2 : ok (log ++ [.put m]) (.got m)) : Judged ok (log ++ putSeen env m) := by
  unfold putSeen
  split
  · rw [show log ++ [Seen.put m, Seen.got m] = (log ++ [.put m]) ++ [.got m] by simp]
    exact (h.snoc h1).snoc h2
  · exact h.snoc h1

/-- what is true of the position along a run -/
theorem position_here (env : ConsumerEnv) (feed : Int64 → List FullMessage → Prop) (start : Int64) (t t' : SC)
    (hc : Change env feed t t') (h1 : position start t.log = t.here) : position start t'.log = t'.here := by
  cases hc with
  | quiet _ ho hc hoc hlog hm hat hin =>
    rw [hlog, h1]
    rcases hat with ⟨ha, hb⟩ | ha
    · rw [here_of_not_sent ha, here_of_not_sent hb, ho]
    · exact (here_of_eq ha ho).symm
  | fetch _ hs htop hat =>
    rw [here_of_not_sent hat, hs]
    simp only
    rw [position_snoc]
    exact h1.trans (by rw [SC.here, htop])
  | put m x ms q hin hx => exact position_put env _ _ _
  | advance m ms hs =>
    refine h1.trans ?_
    rw [SC.here, hs]
    rfl
  | lookup _ a b hin ho htop hlog =>
    rw [here_of_not_sent (by simp [htop]), ho, hlog, position_snoc]
    cases a <;> rfl
  | got m q => rw [position_snoc]; exact h1
  | spawn hsp => exact h1
  | commit _ i c ok hcm ho hl hm hcs hoc hlog =>
    obtain ⟨-, -, -, -, f3⟩ := commitNext_facts env c ok t
    refine Eq.trans ?_ (h1.trans (here_of_eq hl ho).symm)
    rcases f3 with f3 | ⟨m, g, o, f3⟩
    · rw [hlog, f3]
    · rw [hlog, f3, position_snoc]
  | member m g => rw [position_snoc]; exact h1

/-- C37: every fetch starts at the position given by what was handed over before: right after the last message,
or where the consumer was started or reset. -/
theorem C37_next_fetch (env : ConsumerEnv) (as : List ConsumerAct) (s s' : SC) (hlog : s.log = []) (hl : s.loop = .top)
    (h : s.run env as = some s') : Judged (FetchOk s.offset) s'.log := by
  refine (run_induction (P := fun t => position s.offset t.log = t.here ∧ Judged (FetchOk s.offset) t.log) ?_ as s s'
    (Fed.any env as s) h ⟨by simp [hlog, position, SC.here, hl], by rw [hlog]; exact .nil _⟩).2
  rintro t t' hc ⟨h1, h2⟩
  refine ⟨position_here env _ _ t t' hc h1, ?_⟩
  cases hc with
  | quiet _ ho hc hoc hlog hm hat hin => rw [hlog]; exact h2
  | fetch _ hs htop hat =>
    rw [hs]
    exact h2.snoc (by rw [FetchOk, h1, SC.here, htop])
  | put m x ms q hin hx => exact h2.put env m trivial trivial
  | advance m ms hs => exact h2
  | lookup _ a b hin ho htop hlog => rw [hlog]; exact h2.snoc trivial
  | got m q => exact h2.snoc trivial
  | spawn hsp => exact h2
  | commit _ i c ok hcm ho hl hm hcs hoc hlog =>
    obtain ⟨-, -, -, -, f3⟩ := commitNext_facts env c ok t
    rw [hlog]
    rcases f3 with f3 | ⟨m, g, o, f3⟩
    · rw [f3]; exact h2
    · rw [f3]; exact h2.snoc trivial
  | member m g => exact h2.snoc trivial

/-- What a fetch at `o` should give: messages with increasing offsets from `o` on, and errors. -/
def Ascending (o : Int) : List FullMessage → Prop
  | [] => True
  | x :: ms =>
    match x.message with
    | none => Ascending o ms
    | some m => o ≤ m.offset.toInt ∧ m.offset.toInt + 1 < 2 ^ 63 ∧ Ascending (m.offset.toInt + 1) ms

/-- The messages handed over since the position was last looked up. -/
def sinceLookup (log : List Seen) : List Message :=
  log.foldl (fun acc e => match e with
    | .put m => acc ++ [m]
    | .lookup _ _ => []
    | _ => acc) []

/-- a message handed over comes after all those handed over since the last lookup -/
def PutOk (pre : List Seen) : Seen → Prop
  | .put m => ∀ m' ∈ sinceLookup pre, m'.offset < m.offset
  | _ => True

theorem sinceLookup_snoc (log : List Seen) (e : Seen) : sinceLookup (log ++ [e]) =
    (match e with
      | .put m => sinceLookup log ++ [m]
      | .lookup _ _ => []
      | _ => sinceLookup log) := by
  simp [sinceLookup, List.foldl_append]

theorem sinceLookup_put (env : ConsumerEnv) (log : List Seen) (m : Message) :
    sinceLookup (log ++ putSeen env m) = sinceLookup log ++ [m] := by
  unfold putSeen
  split
  · rw [show log ++ [Seen.put m, Seen.got m] = (log ++ [.put m]) ++ [.got m] by simp, sinceLookup_snoc, sinceLookup_snoc]
  · rw [sinceLookup_snoc]

theorem toInt_succ {o : Int64} (h : o.toInt + 1 < 2 ^ 63) : (o + 1).toInt = o.toInt + 1 := by
  rw [Int64.toInt_add]
  have h1 := Int64.le_toInt o
  have : (1 : Int64).toInt = 1 := rfl
  rw [this, Int.bmod_eq_of_le] <;> omega

/-- the messages still to come fit the position -/
structure FitsOn (s : SC) : Prop where
  inner : ∀ ms, s.loop = .inner ms → Ascending s.offset.toInt ms
  sent : ∀ m ms, s.loop = .sent m ms → s.offset.toInt ≤ m.offset.toInt ∧ m.offset.toInt + 1 < 2 ^ 63 ∧
    Ascending (m.offset.toInt + 1) ms

theorem FitsOn.step {env : ConsumerEnv} {t t' : SC} (hc : Change env (fun o ms => Ascending o.toInt ms) t t') (h : FitsOn t) :
    FitsOn t' := by
  cases hc with
  | quiet _ ho hc hoc hlog hm hat hin =>
    refine ⟨fun ms hms => by rw [ho]; exact h.inner ms (hin ms hms), fun m ms hms => ?_⟩
    rcases hat with ⟨ha, hb⟩ | ha
    · exact absurd hms (hb _ _)
    · rw [ho]; exact h.sent m ms (ha ▸ hms)
  | fetch _ hs htop hat hms =>
    refine ⟨fun ms h => ?_, fun m ms h => absurd h (hat _ _)⟩
    have := hms ms h
    rw [hs]
    exact this
  | put m x ms q hin hx =>
    refine ⟨fun ms h => (nomatch h), fun m' ms' h' => ?_⟩
    cases h'
    have := h.inner _ hin
    rw [Ascending, hx] at this
    exact this
  | advance m ms hs =>
    obtain ⟨h1, h2, h3⟩ := h.sent m ms hs
    refine ⟨fun ms' h' => ?_, fun m ms h => nomatch h⟩
    cases h'
    simp only
    rw [toInt_succ h2]
    exact h3
  | lookup _ a b hin ho htop hlog => exact ⟨by simp [htop], by simp [htop]⟩
  | got m q => exact ⟨h.inner, h.sent⟩
  | spawn hsp => exact ⟨h.inner, h.sent⟩
  | commit _ i c ok hcm ho hl hm hcs hoc hlog =>
    exact ⟨fun ms h' => by rw [ho]; exact h.inner ms (hl ▸ h'), fun m ms h' => by rw [ho]; exact h.sent m ms (hl ▸ h')⟩
  | member m g => exact ⟨h.inner, h.sent⟩

/-- C37: if fetches give messages in the order of their offsets, from the requested one on, then between look-ups of
the position every message handed over has a higher offset than all those before it. -/
theorem C37_increasing (env : ConsumerEnv) (as : List ConsumerAct) (s s' : SC) (hlog : s.log = []) (hl : s.loop = .top)
    (hfed : Fed (fun o ms => Ascending o.toInt ms) env as s) (h : s.run env as = some s') : Judged PutOk s'.log := by
  refine (run_induction (P := fun t => FitsOn t ∧ (∀ m ∈ sinceLookup t.log, m.offset.toInt < t.here.toInt) ∧ Judged PutOk t.log)
    ?_ as s s' hfed h ⟨⟨by simp [hl], by simp [hl]⟩, by simp [hlog, sinceLookup], by rw [hlog]; exact .nil _⟩).2.2
  rintro t t' hc ⟨h1, h2, h3⟩
  refine ⟨h1.step hc, ?_⟩
  cases hc with
  | quiet _ ho hc hoc hlog hm hat hin =>
    rw [hlog]
    refine ⟨?_, h3⟩
    rcases hat with ⟨ha, hb⟩ | ha
    · rw [here_of_not_sent hb, ho, ← here_of_not_sent ha]; exact h2
    · rw [here_of_eq ha ho]; exact h2
  | fetch _ hs htop hat =>
    rw [here_of_not_sent hat, hs]
    refine ⟨?_, h3.snoc trivial⟩
    simp only
    rw [sinceLookup_snoc]
    rw [here_of_not_sent (by simp [htop])] at h2
    exact h2
  | put m x ms q hin hx =>
    have hA := h1.inner _ hin
    rw [Ascending, hx] at hA
    obtain ⟨a1, a2, -⟩ := hA
    have hlt : ∀ m' ∈ sinceLookup t.log, m'.offset.toInt < m.offset.toInt := by
      intro m' hm'
      have := h2 m' hm'
      rw [here_of_not_sent (by simp [hin])] at this
      omega
    refine ⟨?_, h3.put env m (fun m' hm' => Int64.lt_iff_toInt_lt.2 (hlt m' hm')) trivial⟩
    simp only
    rw [sinceLookup_put]
    intro m' hm'
    change m'.offset.toInt < (m.offset + 1).toInt
    rw [toInt_succ a2]
    rcases List.mem_append.1 hm' with hm' | hm'
    · have := hlt m' hm'; omega
    · rw [List.mem_singleton.1 hm']; omega
  | advance m ms hs =>
    refine ⟨?_, h3⟩
    rw [SC.here, hs] at h2
    exact h2
  | lookup _ a b hin ho htop hlog =>
    rw [hlog]
    refine ⟨?_, h3.snoc trivial⟩
    rw [sinceLookup_snoc]
    simp
  | got m q => exact ⟨by simp only; rw [sinceLookup_snoc]; exact h2, h3.snoc trivial⟩
  | spawn hsp => exact ⟨h2, h3⟩
  | commit _ i c ok hcm ho hl hm hcs hoc hlog =>
    obtain ⟨-, -, -, -, f3⟩ := commitNext_facts env c ok t
    rw [here_of_eq hl ho, hlog]
    rcases f3 with f3 | ⟨m, g, o, f3⟩
    · rw [f3]; exact ⟨h2, h3⟩
    · rw [f3, sinceLookup_snoc]
      exact ⟨h2, h3.snoc trivial⟩
  | member m g => exact ⟨by simp only; rw [sinceLookup_snoc]; exact h2, h3.snoc trivial⟩

/-! ## C38 -/

/-- Where a position can come from: the start, a look-up, or a message handed over. -/
def Origin (handed : Message → Seen) (start : Int64) (log : List Seen) (o : Int64) : Prop :=
  o = start ∨ (∃ b a, .lookup b a ∈ log ∧ (a = .ok o ∨ o = -1)) ∨ ∃ m, handed m ∈ log ∧ o = m.offset + 1

theorem Origin.mono {handed : Message → Seen} {start : Int64} {log log' : List Seen} {o : Int64}
    (h : Origin handed start log o) (hl : ∀ e ∈ log, e ∈ log') : Origin handed start log' o := by
  rcases h with h | ⟨b, a, h1, h2⟩ | ⟨m, h1, h2⟩
  · exact .inl h
  · exact .inr (.inl ⟨b, a, hl _ h1, h2⟩)
  · exact .inr (.inr ⟨m, hl _ h1, h2⟩)

/-- the committed position has an origin in what was seen before -/
def CommitFrom (handed : Message → Seen) (start : Int64) (pre : List Seen) : Seen → Prop
  | .commit _ _ o _ => Origin handed start pre o
  | _ => True

/-- the position a call of `CommitOffset` has read -/
def CommitAt.value : CommitAt → Option Int64
  | .read o | .checked o | .acknowledged o => some o
  | _ => none

theorem mem_setCommit {cs : List CommitAt} {i : Nat} {r : Option CommitAt} {c : CommitAt} (h : c ∈ setCommit cs i r) :
    c ∈ cs ∨ r = some c := by
  cases r with
  | none => exact .inl (List.mem_of_mem_eraseIdx h)
  | some x =>
    rcases List.mem_or_eq_of_mem_set h with h | h
    · exact .inl h
    · exact .inr (by rw [h])

/-- the position of the next stage of a call, and the position sent, are that read before or the current one -/
theorem commitNext_value (env : ConsumerEnv) (c : CommitAt) (ok : Bool) (s : SC) :
    (∀ c' o, (commitNext env c ok s).1 = some c' → c'.value = some o → c.value = some o ∨ o = s.offset) ∧
    (∀ m g o, (commitNext env c ok s).2.log = s.log ++ [.commit m g o ok] → c.value = some o ∨ o = s.offset) := by
  have hne : ∀ m g o, s.log ≠ s.log ++ [.commit m g o ok] := by intro m g o h; simp at h
  unfold commitNext
  cases c with
  | start =>
    simp only
    split
    · exact ⟨fun _ _ h => (nomatch h), fun m g o h => absurd h (hne m g o)⟩
    · exact ⟨fun _ _ h hv => (by cases h; cases hv), fun m g o h => absurd h (hne m g o)⟩
  | differs => exact ⟨fun _ _ h hv => (by cases h; cases hv; exact .inr rfl), fun m g o h => absurd h (hne m g o)⟩
  | read x =>
    simp only
    split
    · exact ⟨fun _ _ h => (nomatch h), fun m g o h => absurd h (hne m g o)⟩
    · refine ⟨fun _ _ h hv => ?_, fun m g o h => ?_⟩
      · cases ok
        · cases h
        · cases h; cases hv; exact .inl rfl
      · simp only [List.append_cancel_left_eq, List.cons.injEq, Seen.commit.injEq, and_true] at h
        exact .inr h.2.2.symm
    · split
      · exact ⟨fun _ _ h => (nomatch h), fun m g o h => absurd h (hne m g o)⟩
      · exact ⟨fun _ _ h hv => (by cases h; cases hv; exact .inl rfl), fun m g o h => absurd h (hne m g o)⟩
  | checked x =>
    simp only
    refine ⟨fun _ _ h hv => ?_, fun m g o h => ?_⟩
    · cases ok
      · cases h
      · cases h; cases hv; exact .inl rfl
    · simp only [List.append_cancel_left_eq, List.cons.injEq, Seen.commit.injEq, and_true] at h
      exact .inl (by rw [CommitAt.value, h.2.2])
  | acknowledged x => exact ⟨fun _ _ h => (nomatch h), fun m g o h => absurd h (hne m g o)⟩

/-- where committed positions come from, for either meaning of "handed over" -/
theorem commits_from (handed : Message → Seen) (env : ConsumerEnv) (hh : ∀ m, handed m ∈ putSeen env m)
    (as : List ConsumerAct) (s s' : SC) (hlog : s.log = []) (hl : s.loop = .top) (hcs : s.commits = [])
    (h : s.run env as = some s') : Judged (CommitFrom handed s.offset) s'.log := by
  refine (run_induction (P := fun t => Origin handed s.offset t.log t.here ∧ Origin handed s.offset t.log t.offset ∧
      (∀ c ∈ t.commits, ∀ o, c.value = some o → Origin handed s.offset t.log o) ∧ Judged (CommitFrom handed s.offset) t.log)
    ?_ as s s' (Fed.any env as s) h ⟨by rw [here_of_not_sent (by simp [hl])]; exact .inl rfl, .inl rfl, by simp [hcs],
      by rw [hlog]; exact .nil _⟩).2.2.2
  rintro t t' hc ⟨h1, h2, h3, h4⟩
  have mono : ∀ (l : List Seen), t'.log = t.log ++ l → ∀ o, Origin handed s.offset t.log o → Origin handed s.offset t'.log o :=
    fun l hl o ho => ho.mono (fun e he => by rw [hl]; exact List.mem_append.2 (.inl he))
  cases hc with
  | quiet _ ho hc hoc hlog hm hat hin =>
    rw [hlog, ho, hc]
    refine ⟨?_, h2, h3, h4⟩
    rcases hat with ⟨ha, hb⟩ | ha
    · rw [here_of_not_sent hb, ho]; exact h2
    · rw [here_of_eq ha ho]; exact h1
  | fetch _ hs htop hat =>
    have e1 : t'.log = t.log ++ [.fetch t.offset t.fetchMaxBytes] := by rw [hs]
    have e2 : t'.offset = t.offset := by rw [hs]
    have e3 : t'.commits = t.commits := by rw [hs]
    rw [here_of_not_sent hat, e2, e3]
    refine ⟨mono _ e1 _ h2, mono _ e1 _ h2, fun c hc o ho => mono _ e1 _ (h3 c hc o ho), ?_⟩
    rw [e1]
    exact h4.snoc trivial
  | put m x ms q hin hx =>
    refine ⟨.inr (.inr ⟨m, List.mem_append.2 (.inr (hh m)), rfl⟩), mono _ rfl _ h2,
      fun c hc o ho => mono _ rfl _ (h3 c hc o ho), h4.put env m trivial trivial⟩
  | advance m ms hs =>
    rw [SC.here, hs] at h1
    exact ⟨h1, h1, h3, h4⟩
  | lookup _ a b hin ho htop hlog hc hoc hm =>
    have hor : Origin handed s.offset t'.log t'.offset := by
      refine .inr (.inl ⟨b, a, by rw [hlog]; simp, ?_⟩)
      rw [ho]
      cases a with
      | ok v => exact .inl rfl
      | error e => exact .inr rfl
    rw [here_of_not_sent (by simp [htop]), hc]
    refine ⟨hor, hor, fun c hc o ho => mono _ hlog _ (h3 c hc o ho), ?_⟩
    rw [hlog]
    exact h4.snoc trivial
  | got m q =>
    exact ⟨mono _ rfl _ h1, mono _ rfl _ h2, fun c hc o ho => mono _ rfl _ (h3 c hc o ho), h4.snoc trivial⟩
  | spawn hsp =>
    refine ⟨h1, h2, fun c hc o ho => ?_, h4⟩
    rcases List.mem_append.1 hc with hc | hc
    · exact h3 c hc o ho
    · rw [List.mem_singleton.1 hc] at ho; cases ho
  | commit _ i c ok hcm ho hl hm hcs hoc hlog =>
    obtain ⟨-, -, -, -, f3⟩ := commitNext_facts env c ok t
    obtain ⟨v1, v2⟩ := commitNext_value env c ok t
    have hold : ∀ o, c.value = some o ∨ o = t.offset → Origin handed s.offset t.log o := by
      intro o h
      rcases h with h | h
      · exact h3 c (List.mem_of_getElem? hcm) o h
      · rw [h]; exact h2
    have hlist : ∀ c' ∈ t'.commits, ∀ o, c'.value = some o → Origin handed s.offset t.log o := by
      intro c' hc' o hv
      rw [hcs] at hc'
      rcases mem_setCommit hc' with hc' | hc'
      · exact h3 c' hc' o hv
      · exact hold o (v1 c' o hc' hv)
    rw [here_of_eq hl ho, ho]
    rcases f3 with f3 | ⟨m, g, o, f3⟩
    · rw [hlog, f3]
      exact ⟨h1, h2, hlist, h4⟩
    · have e1 := hlog.trans f3
      refine ⟨mono _ e1 _ h1, mono _ e1 _ h2, fun c' hc' o ho => mono _ e1 _ (hlist c' hc' o ho), ?_⟩
      rw [e1]
      exact h4.snoc (hold o (v2 m g o f3))
  | member m g =>
    exact ⟨mono _ rfl _ h1, mono _ rfl _ h2, fun c hc o ho => mono _ rfl _ (h3 c hc o ho), h4.snoc trivial⟩

/-- C38: whatever happens, also with several calls of `CommitOffset` running, a committed position is the one the
consumer was started at, one looked up, or one past a message put into the channel before.
Missing for the full statement: messages waiting in the channel (`C38_violated_buffered`). -/
theorem C38_not_ahead_of_channel_partial (env : ConsumerEnv) (as : List ConsumerAct) (s s' : SC) (hlog : s.log = []) (hl : s.loop = .top)
    (hcs : s.commits = []) (h : s.run env as = some s') : Judged (CommitFrom .put s.offset) s'.log :=
  commits_from .put env (fun m => by unfold putSeen; split <;> simp) as s s' hlog hl hcs h

/-- C38, in full for unbuffered channels: a committed position is the one the consumer was started at, one looked
up, or one past a message the user has received.
Missing: buffered channels (`C38_violated_buffered`). -/
theorem C38_not_ahead_of_user_partial (env : ConsumerEnv) (hcap : env.capacity = 0) (as : List ConsumerAct) (s s' : SC)
    (hlog : s.log = []) (hl : s.loop = .top) (hcs : s.commits = []) (h : s.run env as = some s') :
    Judged (CommitFrom .got s.offset) s'.log :=
  commits_from .got env (fun m => by simp [putSeen, hcap]) as s s' hlog hl hcs h

/-! ## C39 -/

/-- no earlier commit is higher -/
def CommitMono (pre : List Seen) : Seen → Prop
  | .commit _ _ o _ => ∀ m g o' ok, .commit m g o' ok ∈ pre → o' ≤ o
  | _ => True

/-- the position a call of `CommitOffset` may still send -/
def CommitAt.pending : CommitAt → Option Int64
  | .read o | .checked o => some o
  | _ => none

/-- all commits up to here are at most `o` -/
def CommitsUpTo (log : List Seen) (o : Int) : Prop := ∀ m g o' ok, Seen.commit m g o' ok ∈ log → o'.toInt ≤ o

theorem CommitsUpTo.snoc {log : List Seen} {o : Int} (h : CommitsUpTo log o) {e : Seen}
    (he : ∀ m g o' ok, e = .commit m g o' ok → o'.toInt ≤ o) : CommitsUpTo (log ++ [e]) o := by
  intro m g o' ok hm
  rcases List.mem_append.1 hm with hm | hm
  · exact h m g o' ok hm
  · exact he m g o' ok (List.mem_singleton.1 hm).symm

theorem CommitsUpTo.put {log : List Seen} {o : Int} (h : CommitsUpTo log o) (env : ConsumerEnv) (m : Message) :
    CommitsUpTo (log ++ putSeen env m) o := by
  intro m' g o' ok hm
  rcases List.mem_append.1 hm with hm | hm
  · exact h m' g o' ok hm
  · unfold putSeen at hm
    split at hm <;> simp at hm

theorem CommitsUpTo.mono {log : List Seen} {o o' : Int} (h : CommitsUpTo log o) (ho : o ≤ o') : CommitsUpTo log o' :=
  fun m g x ok hm => Int.le_trans (h m g x ok hm) ho

/-- what a step of `CommitOffset` sends, and what it may send afterwards -/
theorem commitNext_sends (env : ConsumerEnv) (c : CommitAt) (ok : Bool) (s : SC) :
    ((commitNext env c ok s).2.log = s.log ∧
      ∀ c', (commitNext env c ok s).1 = some c' → ∀ o, c'.pending = some o → o = s.offset ∨ c.pending = some o) ∨
    (∃ m g o, (commitNext env c ok s).2.log = s.log ++ [.commit m g o ok] ∧ (o = s.offset ∨ c.pending = some o) ∧
      ∀ c', (commitNext env c ok s).1 = some c' → c'.pending = none) := by
  unfold commitNext
  cases c with
  | start =>
    simp only
    split
    · exact .inl ⟨rfl, fun _ h => nomatch h⟩
    · exact .inl ⟨rfl, fun _ h o ho => by cases h; cases ho⟩
  | differs => exact .inl ⟨rfl, fun _ h o ho => by cases h; cases ho; exact .inl rfl⟩
  | read x =>
    simp only
    split
    · exact .inl ⟨rfl, fun _ h => nomatch h⟩
    · refine .inr ⟨_, _, _, rfl, .inl rfl, fun c' h => ?_⟩
      cases ok
      · cases h
      · cases h; rfl
    · split
      · exact .inl ⟨rfl, fun _ h => nomatch h⟩
      · exact .inl ⟨rfl, fun _ h o ho => by cases h; cases ho; exact .inr rfl⟩
  | checked x =>
    refine .inr ⟨_, _, _, rfl, .inr rfl, fun c' h => ?_⟩
    cases ok
    · cases h
    · cases h; rfl
  | acknowledged x => exact .inl ⟨rfl, fun _ h => nomatch h⟩

/-- with one caller, what is true of the commits along a run as long as no position is looked up -/
structure Mono (t : SC) : Prop where
  one : t.commits.length ≤ 1
  upTo : CommitsUpTo t.log t.offset.toInt
  pending : ∀ c ∈ t.commits, ∀ o, c.pending = some o → o.toInt ≤ t.offset.toInt ∧ CommitsUpTo t.log o.toInt
  judged : Judged CommitMono t.log

/-- the position was not looked up -/
def NoLookup (log : List Seen) : Prop := ∀ b a, .lookup b a ∉ log

theorem setCommit_one {cs : List CommitAt} {i : Nat} {c : CommitAt} (h1 : cs.length ≤ 1) (hc : cs[i]? = some c) (r : Option CommitAt) :
    setCommit cs i r = r.toList := by
  match cs, i with
  | [], i => simp at hc
  | [x], 0 => cases r <;> rfl
  | [x], i + 1 => simp at hc
  | _ :: _ :: _, _ => simp at h1

theorem Mono.step {env : ConsumerEnv} (hauto : env.autoOnly = true) {t t' : SC} (hf : FitsOn t)
    (hc : Change env (fun o ms => Ascending o.toInt ms) t t') (h : Mono t) (hno : NoLookup t'.log) : Mono t' := by
  obtain ⟨h1, h2, h3, h4⟩ := h
  cases hc with
  | quiet _ ho hc hoc hlog hm hat hin => exact ⟨by rw [hc]; exact h1, by rw [hlog, ho]; exact h2, by rw [hlog, ho, hc]; exact h3, by rw [hlog]; exact h4⟩
  | fetch _ hs htop hat =>
    rw [hs]
    exact ⟨h1, h2.snoc (fun _ _ _ _ h => nomatch h), fun c hc o ho => ⟨(h3 c hc o ho).1, (h3 c hc o ho).2.snoc (fun _ _ _ _ h => nomatch h)⟩,
      h4.snoc trivial⟩
  | put m x ms q hin hx =>
    exact ⟨h1, h2.put env m, fun c hc o ho => ⟨(h3 c hc o ho).1, (h3 c hc o ho).2.put env m⟩, h4.put env m trivial trivial⟩
  | advance m ms hs =>
    obtain ⟨a1, a2, -⟩ := hf.sent m ms hs
    have hle : t.offset.toInt ≤ (m.offset + 1).toInt := by rw [toInt_succ a2]; omega
    exact ⟨h1, h2.mono hle, fun c hc o ho => ⟨Int.le_trans (h3 c hc o ho).1 hle, (h3 c hc o ho).2⟩, h4⟩
  | lookup _ a b hin ho htop hlog =>
    exact absurd (by rw [hlog]; simp) (hno b a)
  | got m q =>
    exact ⟨h1, h2.snoc (fun _ _ _ _ h => nomatch h), fun c hc o ho => ⟨(h3 c hc o ho).1, (h3 c hc o ho).2.snoc (fun _ _ _ _ h => nomatch h)⟩,
      h4.snoc trivial⟩
  | spawn hsp =>
    refine ⟨by simp [hsp hauto], h2, fun c hc o ho => ?_, h4⟩
    rcases List.mem_append.1 hc with hc | hc
    · exact h3 c hc o ho
    · rw [List.mem_singleton.1 hc] at ho; cases ho
  | commit _ i c ok hcm ho hl hm hcs hoc hlog =>
    have hmem := List.mem_of_getElem? hcm
    rw [setCommit_one h1 hcm] at hcs
    have hmem' : ∀ c' ∈ t'.commits, (commitNext env c ok t).1 = some c' := by
      intro c' hc'
      rw [hcs] at hc'
      cases hr : (commitNext env c ok t).1 with
      | none => rw [hr] at hc'; simp at hc'
      | some x => rw [hr] at hc'; rw [List.mem_singleton.1 hc']
    have hone : t'.commits.length ≤ 1 := by rw [hcs]; cases (commitNext env c ok t).1 <;> simp
    rcases commitNext_sends env c ok t with ⟨e1, e2⟩ | ⟨m, g, o, e1, e2, e3⟩
    · rw [e1] at hlog
      refine ⟨hone, by rw [hlog, ho]; exact h2, fun c' hc' o hp => ?_, by rw [hlog]; exact h4⟩
      rw [hlog, ho]
      rcases e2 c' (hmem' c' hc') o hp with h | h
      · rw [h]; exact ⟨Int.le_refl _, h2⟩
      · exact h3 c hmem o h
    · rw [e1] at hlog
      have hle : o.toInt ≤ t.offset.toInt ∧ CommitsUpTo t.log o.toInt := by
        rcases e2 with h | h
        · rw [h]; exact ⟨Int.le_refl _, h2⟩
        · exact h3 c hmem o h
      refine ⟨hone, ?_, fun c' hc' o' hp => ?_, ?_⟩
      · rw [hlog, ho]
        exact h2.snoc (fun m' g' o' ok' h => by cases h; exact hle.1)
      · rw [e3 c' (hmem' c' hc')] at hp; cases hp
      · rw [hlog]
        exact h4.snoc (fun m' g' o' ok' hm' => Int64.le_iff_toInt_le.2 (hle.2 m' g' o' ok' hm'))
  | member m g =>
    exact ⟨h1, h2.snoc (fun _ _ _ _ h => nomatch h), fun c hc o ho => ⟨(h3 c hc o ho).1, (h3 c hc o ho).2.snoc (fun _ _ _ _ h => nomatch h)⟩,
      h4.snoc trivial⟩

/-- the log only grows -/
theorem Change.log_mono {env : ConsumerEnv} {feed : Int64 → List FullMessage → Prop} {t t' : SC} (hc : Change env feed t t') :
    ∀ e ∈ t.log, e ∈ t'.log := by
  intro e he
  cases hc with
  | quiet _ ho hc hoc hlog hm hat hin => rw [hlog]; exact he
  | fetch _ hs htop hat => rw [hs]; exact List.mem_append.2 (.inl he)
  | put m x ms q hin hx => exact List.mem_append.2 (.inl he)
  | advance m ms hs => exact he
  | lookup _ a b hin ho htop hlog => rw [hlog]; exact List.mem_append.2 (.inl he)
  | got m q => exact List.mem_append.2 (.inl he)
  | spawn hsp => exact he
  | commit _ i c ok hcm ho hl hm hcs hoc hlog =>
    obtain ⟨-, -, -, -, f3⟩ := commitNext_facts env c ok t
    rw [hlog]
    rcases f3 with f3 | ⟨m, g, o, f3⟩
    · rw [f3]; exact he
    · rw [f3]; exact List.mem_append.2 (.inl he)
  | member m g => exact List.mem_append.2 (.inl he)

/-- C39: if only the auto-commit goroutine commits and fetches give messages in the order of their offsets, then as
long as the position is not looked up again no commit is lower than an earlier one.
Missing for the full statement: users calling `CommitOffset` as well (`C39_violated_two_callers`). -/
theorem C39_auto_commit_partial (env : ConsumerEnv) (hauto : env.autoOnly = true) (as : List ConsumerAct) (s s' : SC) (hlog : s.log = [])
    (hl : s.loop = .top) (hcs : s.commits = []) (hfed : Fed (fun o ms => Ascending o.toInt ms) env as s)
    (h : s.run env as = some s') (hno : NoLookup s'.log) : Judged CommitMono s'.log := by
  refine ((run_induction (P := fun t => FitsOn t ∧ (NoLookup t.log → Mono t)) ?_ as s s' hfed h ⟨⟨by simp [hl], by simp [hl]⟩, fun _ =>
    ⟨by simp [hcs], by simp [hlog, CommitsUpTo], by simp [hcs], by rw [hlog]; exact .nil _⟩⟩).2 hno).judged
  rintro t t' hc ⟨h1, h2⟩
  exact ⟨h1.step hc, fun hn => (h2 (fun b a hm => hn b a (hc.log_mono _ hm))).step hauto h1 hc hn⟩

/-! ## C40 -/

/-- the position of the last acknowledged commit -/
def lastOk (log : List Seen) : Option Int64 :=
  log.foldl (fun acc e => match e with
    | .commit _ _ o true => some o
    | _ => acc) none

theorem lastOk_snoc (log : List Seen) (e : Seen) : lastOk (log ++ [e]) =
    (match e with
      | .commit _ _ o true => some o
      | _ => lastOk log) := by
  simp [lastOk, List.foldl_append]

theorem lastOk_put (env : ConsumerEnv) (log : List Seen) (m : Message) : lastOk (log ++ putSeen env m) = lastOk log := by
  unfold putSeen
  split
  · rw [show log ++ [Seen.put m, Seen.got m] = (log ++ [.put m]) ++ [.got m] by simp, lastOk_snoc, lastOk_snoc]
  · rw [lastOk_snoc]

/-- the position committed is not the one acknowledged last -/
def CommitNew (pre : List Seen) : Seen → Prop
  | .commit _ _ o _ => lastOk pre ≠ some o
  | _ => True

/-- what one caller of a group member knows about the commit acknowledged last -/
def CommitAt.Knows (t : SC) : CommitAt → Prop
  | .start => ∀ v, lastOk t.log = some v → v = t.offsetCommited
  | .differs => ∀ v, lastOk t.log = some v → v = t.offsetCommited ∧ v.toInt < t.offset.toInt
  | .read o | .checked o => ∀ v, lastOk t.log = some v → v = t.offsetCommited ∧ v.toInt < o.toInt
  | .acknowledged o => lastOk t.log = some o

theorem CommitAt.Knows.mono {t t' : SC} {c : CommitAt} (h : c.Knows t) (hl : lastOk t'.log = lastOk t.log)
    (hoc : t'.offsetCommited = t.offsetCommited) (ho : t.offset.toInt ≤ t'.offset.toInt) : c.Knows t' := by
  cases c with
  | start => intro v hv; rw [hoc]; exact h v (hl ▸ hv)
  | differs => intro v hv; rw [hoc]; exact ⟨(h v (hl ▸ hv)).1, Int.lt_of_lt_of_le (h v (hl ▸ hv)).2 ho⟩
  | read o => intro v hv; rw [hoc]; exact h v (hl ▸ hv)
  | checked o => intro v hv; rw [hoc]; exact h v (hl ▸ hv)
  | acknowledged o => exact hl.trans h

/-- what is true of the acknowledged commits of a group member with one caller -/
structure News (init : Int64) (t : SC) : Prop where
  unset : lastOk t.log = none → t.offsetCommited = init
  idle : t.commits = [] → ∀ v, lastOk t.log = some v → v = t.offsetCommited
  knows : ∀ c ∈ t.commits, c.Knows t
  judged : Judged CommitNew t.log

theorem News.still {init : Int64} {t t' : SC} (h : News init t) (hc : t'.commits = t.commits) (hl : lastOk t'.log = lastOk t.log)
    (hoc : t'.offsetCommited = t.offsetCommited) (ho : t.offset.toInt ≤ t'.offset.toInt) (hj : Judged CommitNew t'.log) : News init t' :=
  ⟨fun hn => hoc.trans (h.unset (hl ▸ hn)), fun he v hv => by rw [hoc]; exact h.idle (hc ▸ he) v (hl ▸ hv), fun c hm => (h.knows c (hc ▸ hm)).mono hl hoc ho, hj⟩

theorem lastOk_mem {log : List Seen} {v : Int64} (h : lastOk log = some v) : ∃ m g, .commit m g v true ∈ log := by
  induction log using List.reverseRecOn with
  | nil => cases h
  | append_singleton log e ih =>
    have old : lastOk log = some v → ∃ m g, .commit m g v true ∈ log ++ [e] := by
      intro h
      obtain ⟨m, g, hm⟩ := ih h
      exact ⟨m, g, List.mem_append.2 (.inl hm)⟩
    rw [lastOk_snoc] at h
    cases e with
    | commit m g o ok =>
      cases ok
      · exact old h
      · cases h; exact ⟨m, g, by simp⟩
    | _ => exact old h

theorem News.step {init : Int64} {env : ConsumerEnv} (hauto : env.autoOnly = true) (hmode : env.mode = .member) {t t' : SC} (hf : FitsOn t) (hM : Mono t)
    (hc : Change env (fun o ms => Ascending o.toInt ms) t t') (h : News init t) (hno : NoLookup t'.log) : News init t' := by
  cases hc with
  | quiet _ ho hc hoc hlog hm hat hin => exact h.still hc (by rw [hlog]) hoc (by rw [ho]; exact Int.le_refl _) (by rw [hlog]; exact h.judged)
  | fetch _ hs htop hat =>
    rw [hs]
    exact h.still rfl (lastOk_snoc _ _) rfl (Int.le_refl _) (h.judged.snoc trivial)
  | put m x ms q hin hx => exact h.still rfl (lastOk_put _ _ _) rfl (Int.le_refl _) (h.judged.put env m trivial trivial)
  | advance m ms hs =>
    obtain ⟨a1, a2, -⟩ := hf.sent m ms hs
    have hle : t.offset.toInt ≤ (m.offset + 1).toInt := by rw [toInt_succ a2]; omega
    exact h.still rfl rfl rfl hle h.judged
  | lookup _ a b hin ho htop hlog =>
    exact absurd (by rw [hlog]; simp) (hno b a)
  | got m q => exact h.still rfl (lastOk_snoc _ _) rfl (Int.le_refl _) (h.judged.snoc trivial)
  | spawn hsp =>
    refine ⟨h.unset, fun he => by simp at he, fun c hc => ?_, h.judged⟩
    have hnil := hsp hauto
    rw [hnil] at hc
    rw [List.mem_singleton.1 hc]
    exact h.idle hnil
  | commit _ i c ok hcm ho hl hm hcs hoc hlog =>
    have hmem := List.mem_of_getElem? hcm
    have hk := h.knows c hmem
    rw [setCommit_one hM.one hcm] at hcs
    cases c with
    | start =>
      simp only [commitNext] at hcs hoc hlog
      split at hcs
      · rename_i heq
        rw [if_pos heq] at hoc hlog
        exact ⟨fun hn => hoc.trans (h.unset (by rw [← hlog]; exact hn)), fun _ v hv => by rw [hoc]; exact hk v (hlog ▸ hv), by rw [hcs]; simp, by rw [hlog]; exact h.judged⟩
      · rename_i heq
        rw [if_neg heq] at hoc hlog
        refine ⟨fun hn => hoc.trans (h.unset (by rw [← hlog]; exact hn)), by rw [hcs]; simp, fun c' hc' => ?_, by rw [hlog]; exact h.judged⟩
        rw [hcs] at hc'
        rw [List.mem_singleton.1 hc']
        intro v hv
        rw [hoc, ho]
        rw [hlog] at hv
        refine ⟨hk v hv, ?_⟩
        obtain ⟨m, g, hvm⟩ := lastOk_mem hv
        have h1 := hM.upTo m g v true hvm
        have h2 : v.toInt ≠ t.offset.toInt := by
          intro he
          have := Int64.toInt_inj.1 he
          exact heq (this ▸ hk v hv)
        omega
    | differs =>
      simp only [commitNext] at hcs hoc hlog
      refine ⟨fun hn => hoc.trans (h.unset (by rw [← hlog]; exact hn)), by rw [hcs]; simp, fun c' hc' => ?_, by rw [hlog]; exact h.judged⟩
      rw [hcs] at hc'
      rw [List.mem_singleton.1 hc']
      intro v hv
      rw [hoc]
      exact hk v (hlog ▸ hv)
    | read o =>
      simp only [commitNext, hmode] at hcs hoc hlog
      split at hcs
      · rename_i heq
        rw [if_pos heq] at hoc hlog
        exact ⟨fun hn => hoc.trans (h.unset (by rw [← hlog]; exact hn)), fun _ v hv => by rw [hoc]; exact (hk v (hlog ▸ hv)).1, by rw [hcs]; simp, by rw [hlog]; exact h.judged⟩
      · rename_i heq
        rw [if_neg heq] at hoc hlog
        refine ⟨fun hn => hoc.trans (h.unset (by rw [← hlog]; exact hn)), by rw [hcs]; simp, fun c' hc' => ?_, by rw [hlog]; exact h.judged⟩
        rw [hcs] at hc'
        rw [List.mem_singleton.1 hc']
        intro v hv
        rw [hoc]
        exact hk v (hlog ▸ hv)
    | checked o =>
      simp only [commitNext] at hcs hoc hlog
      have hj : Judged CommitNew t'.log := by
        rw [hlog]
        refine h.judged.snoc fun he => ?_
        have := (hk o he).2
        omega
      cases ok with
      | false =>
        refine ⟨fun hn => hoc.trans (h.unset (by rw [hlog, lastOk_snoc] at hn; exact hn)), fun _ v hv => ?_, by rw [hcs]; simp, hj⟩
        rw [hlog, lastOk_snoc] at hv
        rw [hoc]
        exact (hk v hv).1
      | true =>
        refine ⟨fun hn => (by rw [hlog, lastOk_snoc] at hn; cases hn), by rw [hcs]; simp, fun c' hc' => ?_, hj⟩
        rw [hcs] at hc'
        rw [List.mem_singleton.1 hc']
        change lastOk t'.log = some o
        rw [hlog, lastOk_snoc]
    | acknowledged o =>
      simp only [commitNext] at hcs hoc hlog
      have hk : lastOk t.log = some o := hk
      refine ⟨fun hn => (by rw [hlog, hk] at hn; cases hn), fun _ v hv => ?_, by rw [hcs]; simp, by rw [hlog]; exact h.judged⟩
      rw [hlog] at hv
      rw [hk] at hv
      cases hv
      exact hoc.symm
  | member m g => exact h.still rfl (lastOk_snoc _ _) rfl (Int.le_refl _) (h.judged.snoc trivial)

/-- what the runs of a group member with auto-commit keep true -/
theorem news_run (env : ConsumerEnv) (hauto : env.autoOnly = true) (hmode : env.mode = .member) (as : List ConsumerAct) (s s' : SC)
    (hlog : s.log = []) (hl : s.loop = .top) (hcs : s.commits = []) (hfed : Fed (fun o ms => Ascending o.toInt ms) env as s)
    (h : s.run env as = some s') (hno : NoLookup s'.log) : News s.offsetCommited s' := by
  refine ((run_induction (P := fun t => FitsOn t ∧ (NoLookup t.log → Mono t ∧ News s.offsetCommited t)) ?_ as s s' hfed h
    ⟨⟨by simp [hl], by simp [hl]⟩, fun _ =>
    ⟨⟨by simp [hcs], by simp [hlog, CommitsUpTo], by simp [hcs], by rw [hlog]; exact .nil _⟩,
      ⟨fun _ => rfl, by simp [hlog, lastOk], by simp [hcs], by rw [hlog]; exact .nil _⟩⟩⟩).2 hno).2
  rintro t t' hc ⟨h1, h2⟩
  refine ⟨h1.step hc, fun hn => ?_⟩
  obtain ⟨h3, h4⟩ := h2 (fun b a hm => hn b a (hc.log_mono _ hm))
  exact ⟨h3.step hauto h1 hc hn, h4.step hauto hmode h1 h3 hc hn⟩

/-- C40, first half, for members of a group with auto-commit: as long as the position is not looked up again, no
request commits the position acknowledged last.
Missing for the full statement: a consumer committing for itself (`C40_violated_committed_again`). -/
theorem C40_not_again_partial (env : ConsumerEnv) (hauto : env.autoOnly = true) (hmode : env.mode = .member) (as : List ConsumerAct) (s s' : SC)
    (hlog : s.log = []) (hl : s.loop = .top) (hcs : s.commits = []) (hfed : Fed (fun o ms => Ascending o.toInt ms) env as s)
    (h : s.run env as = some s') (hno : NoLookup s'.log) : Judged CommitNew s'.log :=
  (news_run env hauto hmode as s s' hlog hl hcs hfed h hno).judged

/-- the steps of one call of `CommitOffset` of a group member when nothing else happens -/
def commitCall (ok : Bool) : List ConsumerAct := [.commit, .commitStep 0 ok, .commitStep 0 ok, .commitStep 0 ok, .commitStep 0 ok]

/-- C40, second half: after such a run, when no call is going on and the position is not the one acknowledged last,
the next call sends the position, whatever failed before.  Before the first success the position is compared with
the initial 0 instead.
Missing: consumers committing for themselves (`C40_violated_committed_again`). -/
theorem C40_retry_partial (env : ConsumerEnv) (hauto : env.autoOnly = true) (hmode : env.mode = .member) (as : List ConsumerAct) (s s' : SC)
    (hlog : s.log = []) (hl : s.loop = .top) (hcs : s.commits = []) (hfed : Fed (fun o ms => Ascending o.toInt ms) env as s)
    (h : s.run env as = some s') (hno : NoLookup s'.log) (hidle : s'.commits = [])
    (hne : s'.offset ≠ (lastOk s'.log).getD s.offsetCommited)
    (hm : s'.memberID ≠ []) (hpos : 0 ≤ s'.offset) (ok : Bool) :
    (s'.run env (commitCall ok)).map SC.log = some (s'.log ++ [.commit s'.memberID s'.generationID s'.offset ok]) := by
  have hN := news_run env hauto hmode as s s' hlog hl hcs hfed h hno
  have hne' : s'.offset ≠ s'.offsetCommited := by
    intro he
    apply hne
    rw [he]
    cases hv : lastOk s'.log with
    | none => exact hN.unset hv
    | some v => exact (hN.idle hidle v hv).symm
  have h0 : ¬ (s'.memberID = [] ∨ s'.offset < 0) := by
    rintro (h | h)
    · exact hm h
    · exact absurd (Int64.lt_iff_toInt_lt.1 h) (by have := Int64.le_iff_toInt_le.1 hpos; omega)
  cases ok <;> simp [commitCall, SC.run, SC.step, commitNext, setCommit, hidle, hne', hmode, h0]

end Healer
