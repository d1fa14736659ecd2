import Verif.Props.Restart
import Verif.Props.Lost

/-!
# C180: a consumer that is started again continues where its predecessor stood

A new consumer takes 0 for the position that was committed last (simple_consumer.go:33, 324), so a consumer that stands at 0 commits nothing.
-/

namespace Healer

/-- nothing was put into the channel -/
def NothingPut (log : List Seen) : Prop := ∀ m, Seen.put m ∉ log

/-- no commit was sent -/
def NothingCommitted (log : List Seen) : Prop := ∀ m g o ok, Seen.commit m g o ok ∉ log

/-- the consumer stands at 0 and has had no reason to commit -/
structure AtZero (s : SC) : Prop where
  offset : s.offset = 0
  committed : s.offsetCommited = 0
  calls : ∀ c ∈ s.commits, c = .start
  log : NothingCommitted s.log
  loop : ∀ m ms, s.loop ≠ .sent m ms

theorem nothingCommitted_snoc {l : List Seen} {e : Seen} (h : NothingCommitted l) (he : ∀ m g o ok, e ≠ .commit m g o ok) : NothingCommitted (l ++ [e]) := by
  intro m g o ok hm
  rcases List.mem_append.1 hm with hm | hm
  · exact h m g o ok hm
  · simp only [List.mem_singleton] at hm
    exact he m g o ok hm.symm

theorem atZero_step (env : ConsumerEnv) (a : ConsumerAct) (s s' : SC) (h : AtZero s) (hs : s.step env a = some s')
    (hp : NothingPut s'.log) (hl : NoLookup s'.log) : AtZero s' := by
  obtain ⟨h1, h2, h3, h4, h5⟩ := h
  cases a with
  | fetchFailed =>
    simp only [SC.step] at hs
    repeat' split at hs
    all_goals cases hs
    · exact ⟨h1, h2, h3, h4, by simp⟩
    · exact ⟨h1, h2, h3, nothingCommitted_snoc h4 (by simp), h5⟩
  | fetched ms =>
    simp only [SC.step] at hs
    repeat' split at hs
    all_goals cases hs
    exact ⟨h1, h2, h3, nothingCommitted_snoc h4 (by simp), by simp⟩
  | noticed =>
    simp only [SC.step] at hs
    repeat' split at hs
    all_goals cases hs
    exact ⟨h1, h2, h3, h4, by simp⟩
  | next answer =>
    simp only [SC.step, nextMessage] at hs
    repeat' split at hs
    all_goals cases hs
    · exact ⟨h1, h2, h3, h4, by simp⟩
    · simp only [onError] at hp hl ⊢
      repeat' split
      · rename_i hk
        exact absurd (by rw [if_pos hk]; simp) (hl s.fromBeginning answer)
      · exact ⟨h1, h2, h3, h4, by simp⟩
      · exact ⟨h1, h2, h3, h4, by simp⟩
    · rename_i m _ _ _
      exact absurd (by simp [putSeen]; split <;> simp) (hp m)
    · rename_i m _ _ _ _
      exact absurd (by simp [putSeen]; split <;> simp) (hp m)
  | advance =>
    unfold SC.step at hs
    cases hk : s.loop with
    | sent m ms => exact absurd hk (h5 m ms)
    | _ => simp [hk] at hs
  | leader found =>
    simp only [SC.step] at hs
    split at hs
    · cases hs
      split
      · exact ⟨h1, h2, h3, h4, by simp⟩
      · exact ⟨h1, h2, h3, h4, h5⟩
    · cases hs
  | receive =>
    simp only [SC.step] at hs
    split at hs
    · cases hs
      exact ⟨h1, h2, h3, nothingCommitted_snoc h4 (by simp), h5⟩
    · cases hs
  | commit =>
    simp only [SC.step] at hs
    split at hs
    · cases hs
    · cases hs
      refine ⟨h1, h2, fun c hc => ?_, h4, h5⟩
      rcases List.mem_append.1 hc with hc | hc
      · exact h3 c hc
      · simpa using hc
  | commitStep i ok =>
    simp only [SC.step] at hs
    split at hs
    · rename_i c hc
      cases hs
      have := h3 c (List.mem_of_getElem? hc)
      subst this
      have e : commitNext env .start ok s = (none, s) := by simp [commitNext, h1, h2]
      rw [e]
      exact ⟨h1, h2, fun c hc => h3 c (List.mem_of_mem_eraseIdx hc), h4, h5⟩
    · cases hs
  | membership m g =>
    cases hs
    exact ⟨h1, h2, h3, nothingCommitted_snoc h4 (by simp), h5⟩
  | cancel => cases hs; exact ⟨h1, h2, h3, h4, h5⟩
  | stop => cases hs; exact ⟨h1, h2, h3, h4, h5⟩

theorem run_log_mono (env : ConsumerEnv) (as : List ConsumerAct) (s s' : SC) (h : s.run env as = some s') : ∀ e ∈ s.log, e ∈ s'.log := by
  intro e he
  exact run_induction (P := fun t => e ∈ t.log) (fun _ _ hc hp => hc.log_mono e hp) as s s' (Fed.any env as s) h he

theorem atZero_run (env : ConsumerEnv) : ∀ (as : List ConsumerAct) (s s' : SC), AtZero s → s.run env as = some s' → NothingPut s'.log → NoLookup s'.log → AtZero s'
  | [], s, s', h, hr, _, _ => by simp only [SC.run, Option.some.injEq] at hr; exact hr ▸ h
  | a :: as, s, s', h, hr, hp, hl => by
    simp only [SC.run] at hr
    cases h1 : s.step env a with
    | none => rw [h1] at hr; cases hr
    | some s1 =>
      rw [h1] at hr
      have hsub := run_log_mono env as s1 s' hr
      exact atZero_run env as s1 s' (atZero_step env a s s1 h h1 (fun m hm => hp m (hsub _ hm)) (fun b x hm => hl b x (hsub _ hm))) hr hp hl

/-- C180: a consumer that began at 0, put no message into the channel and was not told that its position is out of range commits nothing,
however often `CommitOffset` is called and whether it commits automatically or not.  If the next consumer is started with the last position as its
wish, and the coordinator knows no position of the group, it begins at the end the log has by then: of the messages `L`, none before that end is
put into the channel by either of the two. -/
theorem C180_violated_every_zero (l1 l2 : Life) (L : List Kafka.Stored) (e : Int64) (h1 : l1.start.offset = 0)
    (hr : l1.start.run l1.env l1.acts = some l1.final) (hp : NothingPut l1.final.log) (hl : NoLookup l1.final.log)
    (ho : l2.offset = -1) (hc : l2.committed = -1) (ha : l2.answers = [.ok e]) (h2 : l2.Ran L)
    (hL : L.Pairwise fun a b => a.offset < b.offset) (hmax : ∀ m ∈ L, m.offset + 1 < 2 ^ 63) :
    NothingCommitted l1.final.log ∧ l2.start.offset = e ∧
      ∀ x ∈ L, x.offset < e.toInt → ∀ m, m.seen = x → Seen.put m ∉ l1.final.log ∧ Seen.put m ∉ l2.final.log := by
  obtain ⟨hlog, hloop, hcs⟩ := consumeStart_fresh l1.env.mode l1.offset l1.committed l1.answers l1.fetchMaxBytes
  have hz : AtZero l1.start := by
    refine ⟨h1, ?_, ?_, ?_, ?_⟩
    · unfold Life.start consumeStart; simp only []; split <;> split <;> rfl
    · unfold Life.start; rw [hcs]; simp
    · unfold Life.start; rw [hlog]; intro m g o ok hm; cases hm
    · unfold Life.start; rw [hloop]; simp
  have he : l2.start.offset = e := by
    unfold Life.start consumeStart
    rw [ho, hc, ha]
    have : ¬ ((-1 : Int64) ≥ 0) := by decide
    simp [this, initLookups]
  refine ⟨(atZero_run l1.env l1.acts _ _ hz hr hp hl).log, he, fun x hx hlt m hm => ⟨hp m, fun hin => ?_⟩⟩
  obtain ⟨glog, gloop, -⟩ := consumeStart_fresh l2.env.mode l2.offset l2.committed l2.answers l2.fetchMaxBytes
  have hpre := C37_exactly_once l2.env L hL hmax l2.acts l2.start l2.final glog gloop h2.fed h2.run
  rw [lastReset_none _ _ h2.inRange, he] at hpre
  have hmem : m.seen ∈ fromOffset L e.toInt :=
    hpre.subset (List.mem_map.2 ⟨m, (sinceLookup_all _ h2.inRange m).2 hin, rfl⟩)
  simp only [fromOffset, List.mem_filter, decide_eq_true_eq] at hmem
  rw [hm] at hmem
  omega

/-- C180: a consumer whose position is not the one it takes for committed sends it when `CommitOffset` is called, and a consumer that is told
this position begins there. -/
theorem C180_committed_partial (env : ConsumerEnv) (s : SC) (hne : s.offset ≠ s.offsetCommited) (h0 : 0 ≤ s.offset.toInt)
    (hm : env.mode = .own ∨ env.mode = .member ∧ s.memberID ≠ []) (hc : s.commits = []) :
    (∃ n s' m g, s.run env (.commit :: List.replicate n (.commitStep 0 true)) = some s' ∧ Seen.commit m g s.offset true ∈ s'.log ∧ s'.commits = []) ∧
      ∀ o answers k, o = -1 ∨ o = -2 → (consumeStart env.mode o s.offset answers k).offset = s.offset := by
  have hge : s.offset ≥ 0 := Int64.le_iff_toInt_le.2 h0
  have hlt : ¬ s.offset < 0 := by
    intro h
    have := Int64.lt_iff_toInt_lt.1 h
    exact absurd h0 (by simpa using this)
  have hneg : ¬ (s.offset = -1 ∨ s.offset = -2) := by
    rintro (h | h) <;> rw [h] at h0 <;> exact absurd h0 (by decide)
  constructor
  · rcases hm with hm | ⟨hm, hi⟩
    · refine ⟨4, { s with log := s.log ++ [.commit [] (-1) s.offset true], offsetCommited := s.offset }, [], -1, ?_, by simp, hc⟩
      simp [SC.run, SC.step, List.replicate, hc, setCommit, commitNext, hne, hm]
    · refine ⟨5, { s with log := s.log ++ [.commit s.memberID s.generationID s.offset true], offsetCommited := s.offset }, s.memberID, s.generationID, ?_, by simp, hc⟩
      simp [SC.run, SC.step, List.replicate, hc, setCommit, commitNext, hne, hm, hi, hlt]
  · intro o answers k hk
    have hmode : env.mode ≠ .none := by rcases hm with hm | ⟨hm, -⟩ <;> rw [hm] <;> simp
    unfold consumeStart
    simp only [hmode, hk, hge, ne_eq, not_false_eq_true, and_self, if_true, hneg, if_false]

/-! ## Cases -/

/-- a consumer of an empty partition: it looks the end up, fetches nothing, and `CommitOffset` is called -/
def idleLife : Life where
  env := { mode := .own }
  offset := -1
  committed := -1
  answers := [.ok 0]
  fetchMaxBytes := 100
  acts := [.fetched [], .next (.ok 0), .commit, .commitStep 0 true, .fetchFailed]
  final := ((consumeStart .own (-1) (-1) [.ok 0] 100).run { mode := .own } [.fetched [], .next (.ok 0), .commit, .commitStep 0 true, .fetchFailed]).getD
    { offset := 0, fetchMaxBytes := 0 }

/-- its successor, started when the log ends at 8 -/
def lateLife : Life where
  env := { mode := .own }
  offset := -1
  committed := -1
  answers := [.ok 8]
  fetchMaxBytes := 100
  acts := [.fetched [at' 8], .next (.ok 0)]
  final := ((consumeStart .own (-1) (-1) [.ok 8] 100).run { mode := .own } [.fetched [at' 8], .next (.ok 0)]).getD { offset := 0, fetchMaxBytes := 0 }

/-- the messages 5 and 7, produced in between, reach nobody; the message 8 does -/
example : NothingCommitted idleLife.final.log ∧ Seen.put { offset := 8 } ∈ lateLife.final.log ∧
    ({ offset := 7 } : Message).seen ∈ threeStored ∧
    Seen.put { offset := 7 } ∉ idleLife.final.log ∧ Seen.put { offset := 7 } ∉ lateLife.final.log := by
  have two : FromLog (fromOffset threeStored 8) [at' 8] := by
    intro _ m hm; cases hm
    exact ⟨_, rfl, trivial⟩
  have hran : lateLife.Ran threeStored := by
    refine ⟨rfl, ?_, ?_⟩
    · exact ⟨fun ms h => by cases h; exact two, fun s1 _ => fed_none _ _ _ (by simp) s1⟩
    · intro b a h
      have e : lateLife.final.log = [.fetch 8 100, .put { offset := 8 }] := rfl
      rw [e] at h; simp at h
  have e : idleLife.final.log = [.fetch 0 100, .fetch 0 100] := rfl
  have h := C180_violated_every_zero idleLife lateLife threeStored 8 rfl rfl (by intro m h; rw [e] at h; simp at h)
    (by intro b a h; rw [e] at h; simp at h) rfl rfl rfl hran (by decide) (by decide)
  have h7 := h.2.2 ({ offset := 7 } : Message).seen (by decide) (by decide) { offset := 7 } rfl
  exact ⟨h.1, List.mem_of_getElem? (i := 1) rfl, by decide, h7.1, h7.2⟩

/-- a consumer at 6 that has committed nothing -/
example : ({ offset := 6, fetchMaxBytes := 100 } : SC).offset ≠ ({ offset := 6, fetchMaxBytes := 100 } : SC).offsetCommited := by decide

end Healer
