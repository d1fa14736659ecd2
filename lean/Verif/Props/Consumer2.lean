import Verif.Props.Consumer
import Verif.Props.Brokers2
import Verif.Props.Fetch

/-!
# C41-C43, C96-C99: the partition consumer's fetch size, resets, membership, and its failures; cases of C37-C40
-/

namespace Healer

/-! ## C41 -/

/-- the step takes a too-small error -/
def tooSmallNow (a : ConsumerAct) (s : SC) : Bool :=
  match a, s.loop with
  | .next _, .inner (x :: _) => x.error = some .maxBytesTooSmall
  | _, _ => false

/-- how many too-small errors are taken during a run -/
def tooSmalls (env : ConsumerEnv) : List ConsumerAct → SC → Nat
  | [], _ => 0
  | a :: as, s => (if tooSmallNow a s then 1 else 0) + (s.step env a).elim 0 (tooSmalls env as)

theorem onError_size (e : Err) (answer : Except Err Int64) (s : SC) :
    (onError e answer s).fetchMaxBytes = growFetch e s.fetchMaxBytes ∧
      ∀ o n, .fetch o n ∈ (onError e answer s).log → .fetch o n ∈ s.log := by
  unfold onError
  simp only
  split
  · exact ⟨rfl, fun o n h => by simpa using h⟩
  · split <;> exact ⟨rfl, fun o n h => h⟩

theorem commitNext_size (env : ConsumerEnv) (c : CommitAt) (ok : Bool) (s : SC) :
    (commitNext env c ok s).2.fetchMaxBytes = s.fetchMaxBytes ∧ (commitNext env c ok s).2.fromBeginning = s.fromBeginning := by
  unfold commitNext
  cases c with
  | start => simp only; split <;> exact ⟨rfl, rfl⟩
  | differs => exact ⟨rfl, rfl⟩
  | read o =>
    simp only
    split
    · exact ⟨rfl, rfl⟩
    · exact ⟨rfl, rfl⟩
    · split <;> exact ⟨rfl, rfl⟩
  | checked o => exact ⟨rfl, rfl⟩
  | acknowledged o => exact ⟨rfl, rfl⟩

/-- what a step does to the fetch size -/
theorem step_size (env : ConsumerEnv) (a : ConsumerAct) (s s' : SC) (h : s.step env a = some s') :
    s'.fetchMaxBytes = (if tooSmallNow a s then s.fetchMaxBytes * 2 else s.fetchMaxBytes) ∧
      ∀ o n, .fetch o n ∈ s'.log → .fetch o n ∈ s.log ∨ n = s.fetchMaxBytes := by
  cases a with
  | fetchFailed =>
    simp only [SC.step] at h
    split at h
    · split at h
      · cases h; exact ⟨rfl, fun o n h => .inl h⟩
      · cases h
        refine ⟨rfl, fun o n h => ?_⟩
        rcases List.mem_append.1 h with h | h
        · exact .inl h
        · cases List.mem_singleton.1 h; exact .inr rfl
    · cases h
  | fetched ms =>
    simp only [SC.step] at h
    split at h
    · split at h
      · cases h
      · cases h
        refine ⟨rfl, fun o n h => ?_⟩
        rcases List.mem_append.1 h with h | h
        · exact .inl h
        · cases List.mem_singleton.1 h; exact .inr rfl
    · cases h
  | noticed =>
    simp only [SC.step] at h
    split at h
    · split at h
      · cases h; exact ⟨rfl, fun o n h => .inl h⟩
      · cases h
    · cases h
  | next answer =>
    simp only [SC.step, nextMessage] at h
    split at h
    · rename_i hl
      cases h
      refine ⟨?_, fun o n h => .inl h⟩
      simp [tooSmallNow, hl]
    · rename_i x ms hl
      split at h
      · rename_i e hx
        cases h
        obtain ⟨h1, h2⟩ := onError_size e answer s
        refine ⟨?_, fun o n h => .inl (h2 o n h)⟩
        rw [h1, growFetch]
        simp only [tooSmallNow, hl, hx, Option.some.injEq, decide_eq_true_eq]
      · cases h
      · rename_i m hx hm
        have hno : tooSmallNow (.next answer) s = false := by simp [tooSmallNow, hl, hx]
        have hlog : ∀ o n, Seen.fetch o n ∈ s.log ++ putSeen env m → Seen.fetch o n ∈ s.log ∨ n = s.fetchMaxBytes := by
          intro o n h
          rcases List.mem_append.1 h with h | h
          · exact .inl h
          · unfold putSeen at h
            split at h <;> simp at h
        split at h
        · cases h
          rw [hno]
          exact ⟨rfl, hlog⟩
        · split at h
          · cases h
            rw [hno]
            exact ⟨rfl, hlog⟩
          · cases h
    · cases h
  | advance =>
    simp only [SC.step] at h
    split at h
    · cases h; exact ⟨rfl, fun o n h => .inl h⟩
    · cases h
  | leader found =>
    simp only [SC.step] at h
    split at h
    · cases h
      split <;> exact ⟨rfl, fun o n h => .inl h⟩
    · cases h
  | receive =>
    simp only [SC.step] at h
    split at h
    · cases h; exact ⟨rfl, fun o n h => .inl (by simpa using h)⟩
    · cases h
  | commit =>
    simp only [SC.step] at h
    split at h
    · cases h
    · cases h; exact ⟨rfl, fun o n h => .inl h⟩
  | commitStep i ok =>
    simp only [SC.step] at h
    split at h
    · rename_i c hc
      cases h
      obtain ⟨-, -, -, -, f3⟩ := commitNext_facts env c ok s
      refine ⟨(commitNext_size env c ok s).1, fun o n h => .inl ?_⟩
      simp only at h
      rcases f3 with f3 | ⟨m, g, o', f3⟩
      · rw [f3] at h; exact h
      · rw [f3] at h; simpa using h
    · cases h
  | membership m g =>
    simp only [SC.step] at h
    cases h
    exact ⟨rfl, fun o n h => .inl (by simpa using h)⟩
  | cancel =>
    simp only [SC.step] at h
    cases h
    exact ⟨rfl, fun o n h => .inl h⟩
  | stop =>
    simp only [SC.step] at h
    cases h
    exact ⟨rfl, fun o n h => .inl h⟩

theorem toInt_double {n : Int32} (h0 : 0 < n.toInt) (h : n.toInt * 2 < 2 ^ 31) : (n * 2).toInt = n.toInt * 2 := by
  rw [Int32.toInt_mul]
  have : (2 : Int32).toInt = 2 := rfl
  rw [this, Int.bmod_eq_of_le] <;> omega

/-- C41: each too-small answer doubles the size of the following fetches, and all sizes are positive, as long as
the last one is less than 2 GiB.
Missing for the full statement: what happens then (`C41_violated`). -/
theorem C41_doubles_partial (env : ConsumerEnv) (as : List ConsumerAct) (s s' : SC) (hlog : ∀ o n, .fetch o n ∈ s.log → 0 < n.toInt)
    (hpos : 0 < s.fetchMaxBytes.toInt) (hfit : s.fetchMaxBytes.toInt * 2 ^ tooSmalls env as s < 2 ^ 31)
    (h : s.run env as = some s') : s'.fetchMaxBytes.toInt = s.fetchMaxBytes.toInt * 2 ^ tooSmalls env as s ∧
      ∀ o n, .fetch o n ∈ s'.log → 0 < n.toInt := by
  induction as generalizing s with
  | nil =>
    simp only [SC.run, Option.some.injEq] at h
    cases h
    exact ⟨by simp [tooSmalls], hlog⟩
  | cons a as ih =>
    simp only [SC.run] at h
    cases h1 : s.step env a with
    | none => rw [h1] at h; cases h
    | some s1 =>
      rw [h1] at h
      obtain ⟨hsz, hf⟩ := step_size env a s s1 h1
      rw [tooSmalls, h1] at hfit ⊢
      simp only [Option.elim] at hfit ⊢
      have hlog1 : ∀ o n, Seen.fetch o n ∈ s1.log → 0 < n.toInt := by
        intro o n hm
        rcases hf o n hm with hm | hm
        · exact hlog o n hm
        · rw [hm]; exact hpos
      have hpow : 0 < (2 : Int) ^ tooSmalls env as s1 := Int.pow_pos (by decide)
      cases ht : tooSmallNow a s with
      | true =>
        rw [ht] at hfit hsz
        simp only [if_true] at hfit hsz ⊢
        rw [Int.pow_add, Int.pow_one, ← Int.mul_assoc] at hfit ⊢
        have hle : s.fetchMaxBytes.toInt * 2 ≤ s.fetchMaxBytes.toInt * 2 * 2 ^ tooSmalls env as s1 := by
          have := Int.mul_le_mul_of_nonneg_left (show (1 : Int) ≤ 2 ^ tooSmalls env as s1 by omega)
            (show 0 ≤ s.fetchMaxBytes.toInt * 2 by omega)
          simpa using this
        have hd : s1.fetchMaxBytes.toInt = s.fetchMaxBytes.toInt * 2 := by rw [hsz]; exact toInt_double hpos (by omega)
        rw [← hd] at hfit ⊢
        exact ih s1 hlog1 (by omega) hfit h
      | false =>
        rw [ht] at hfit hsz
        simp only [Bool.false_eq_true, if_false, Nat.zero_add] at hfit hsz ⊢
        rw [← hsz] at hfit hpos ⊢
        exact ih s1 hlog1 hpos hfit h

/-! ## C42 -/

/-- no message handed over and no position looked up -/
def Unmoved : Seen → Prop
  | .put _ | .lookup _ _ => False
  | _ => True

theorem position_unmoved (start : Int64) (log mid : List Seen) (h : ∀ e ∈ mid, Unmoved e) :
    position start (log ++ mid) = position start log := by
  induction mid generalizing log with
  | nil => rw [List.append_nil]
  | cons e mid ih =>
    rw [show log ++ e :: mid = (log ++ [e]) ++ mid by simp, ih _ (fun x hx => h x (List.mem_cons_of_mem _ hx)), position_snoc]
    have := h e (List.mem_cons_self ..)
    cases e <;> first | rfl | cases this

/-- C42: after an offset-out-of-range answer the broker is asked for a position, and a position it gives is where the
next fetch starts.
Missing for the full statement: the look-up may fail, and the next fetch then starts at -1 (`C42_violated`). -/
theorem C42_fetch_from_answer_partial (env : ConsumerEnv) (as : List ConsumerAct) (s s' : SC) (hlog : s.log = []) (hl : s.loop = .top)
    (h : s.run env as = some s') (pre mid post : List Seen) (b : Bool) (v o : Int64) (n : Int32)
    (hmid : ∀ e ∈ mid, Unmoved e) (heq : s'.log = pre ++ .lookup b (.ok v) :: (mid ++ .fetch o n :: post)) : o = v := by
  have := C37_next_fetch env as s s' hlog hl h (pre ++ .lookup b (.ok v) :: mid) (.fetch o n) post (by rw [heq]; simp)
  rw [FetchOk, show pre ++ Seen.lookup b (.ok v) :: mid = (pre ++ [.lookup b (.ok v)]) ++ mid by simp,
    position_unmoved _ _ _ hmid, position_snoc] at this
  exact this

/-- C42: the look-up is made. -/
theorem C42_asks (env : ConsumerEnv) (s : SC) (x : FullMessage) (ms : List FullMessage) (e : Err) (hl : s.loop = .inner (x :: ms))
    (hx : x.error = some e) (he : e.is (.kafka 1) = true) (a : Except Err Int64) :
    ∃ s', s.step env (.next a) = some s' ∧ s'.log = s.log ++ [.lookup s.fromBeginning a] ∧ s'.loop = .top := by
  refine ⟨onError e a s, ?_, ?_, ?_⟩
  · simp only [SC.step, nextMessage, hl, hx]
  · simp only [onError, he, if_true]
  · simp only [onError, he, if_true]

/-! ## C43, C97 -/

/-- the membership at the end of a log -/
def lastMember (init : Bytes × Int32) (log : List Seen) : Bytes × Int32 :=
  log.foldl (fun acc e => match e with
    | .member m g => (m, g)
    | _ => acc) init

theorem lastMember_snoc (init : Bytes × Int32) (log : List Seen) (e : Seen) : lastMember init (log ++ [e]) =
    (match e with
      | .member m g => (m, g)
      | _ => lastMember init log) := by
  simp [lastMember, List.foldl_append]

theorem lastMember_put (init : Bytes × Int32) (env : ConsumerEnv) (log : List Seen) (m : Message) :
    lastMember init (log ++ putSeen env m) = lastMember init log := by
  unfold putSeen
  split
  · rw [show log ++ [Seen.put m, Seen.got m] = (log ++ [.put m]) ++ [.got m] by simp, lastMember_snoc, lastMember_snoc]
  · rw [lastMember_snoc]

/-- a commit carries the current membership and a position that is not negative -/
def MemberCommit (init : Bytes × Int32) (pre : List Seen) : Seen → Prop
  | .commit m g o _ => (m, g) = lastMember init pre ∧ 0 ≤ o
  | _ => True

theorem commitNext_member (env : ConsumerEnv) (hmode : env.mode = .member) (c : CommitAt) (ok : Bool) (s : SC) :
    ((commitNext env c ok s).2.log = s.log ∨
      ∃ o, c = .checked o ∧ (commitNext env c ok s).2.log = s.log ++ [.commit s.memberID s.generationID o ok]) ∧
    ∀ o, (commitNext env c ok s).1 = some (.checked o) → ¬ o < 0 := by
  unfold commitNext
  cases c with
  | start =>
    simp only
    split
    · exact ⟨.inl rfl, fun _ h => nomatch h⟩
    · exact ⟨.inl rfl, fun _ h => nomatch h⟩
  | differs => exact ⟨.inl rfl, fun _ h => nomatch h⟩
  | read x =>
    simp only [hmode]
    split
    · exact ⟨.inl rfl, fun _ h => nomatch h⟩
    · rename_i hn
      refine ⟨.inl rfl, fun o h => ?_⟩
      cases h
      exact fun hlt => hn (.inr hlt)
  | checked x =>
    refine ⟨.inr ⟨x, rfl, rfl⟩, fun o h => ?_⟩
    cases ok <;> cases h
  | acknowledged x => exact ⟨.inl rfl, fun _ h => nomatch h⟩

/-- C43: in every run of a group member, whatever goroutines commit, a commit carries the member id and generation
the group consumer has at that moment, and a position that is not negative.
Missing for the full statement: the member id may have been given up since it was checked (`C43_violated_left`). -/
theorem C43_current_membership_partial (env : ConsumerEnv) (hmode : env.mode = .member) (as : List ConsumerAct) (s s' : SC) (hlog : s.log = [])
    (hcs : s.commits = []) (h : s.run env as = some s') : Judged (MemberCommit (s.memberID, s.generationID)) s'.log := by
  refine (run_induction (P := fun t => lastMember (s.memberID, s.generationID) t.log = (t.memberID, t.generationID) ∧
      (∀ o, CommitAt.checked o ∈ t.commits → ¬ o < 0) ∧ Judged (MemberCommit (s.memberID, s.generationID)) t.log)
    ?_ as s s' (Fed.any env as s) h ⟨by simp [hlog, lastMember], by simp [hcs], by rw [hlog]; exact .nil _⟩).2.2
  rintro t t' hc ⟨h1, h2, h3⟩
  cases hc with
  | quiet _ ho hc hoc hlog hm hat hin =>
    rw [hlog, hc, hm.1, hm.2]
    exact ⟨h1, h2, h3⟩
  | fetch _ hs htop hat =>
    rw [hs]
    exact ⟨by simp only; rw [lastMember_snoc]; exact h1, h2, h3.snoc trivial⟩
  | put m x ms q hin hx => exact ⟨by simp only; rw [lastMember_put]; exact h1, h2, h3.put env m trivial trivial⟩
  | advance m ms hs => exact ⟨h1, h2, h3⟩
  | lookup _ a b hin ho htop hlog hc hoc hm =>
    rw [hlog, hc, hm.1, hm.2]
    exact ⟨by rw [lastMember_snoc]; exact h1, h2, h3.snoc trivial⟩
  | got m q => exact ⟨by simp only; rw [lastMember_snoc]; exact h1, h2, h3.snoc trivial⟩
  | spawn hsp =>
    refine ⟨h1, fun o ho => ?_, h3⟩
    rcases List.mem_append.1 ho with ho | ho
    · exact h2 o ho
    · simp at ho
  | commit _ i c ok hcm ho hl hm hcs hoc hlog =>
    obtain ⟨f1, f2⟩ := commitNext_member env hmode c ok t
    have h2' : ∀ o, CommitAt.checked o ∈ t'.commits → ¬ o < 0 := by
      intro o ho
      rw [hcs] at ho
      rcases mem_setCommit ho with ho | ho
      · exact h2 o ho
      · exact f2 o ho
    rw [hm.1, hm.2, hlog]
    rcases f1 with f1 | ⟨o, hco, f1⟩
    · rw [f1]; exact ⟨h1, h2', h3⟩
    · rw [f1, lastMember_snoc]
      refine ⟨h1, h2', h3.snoc ⟨h1.symm, ?_⟩⟩
      have := h2 o (hco ▸ List.mem_of_getElem? hcm)
      rw [Int64.le_iff_toInt_le]
      rw [Int64.lt_iff_toInt_lt] at this
      omega
  | member m g => exact ⟨by simp only; rw [lastMember_snoc], h2, h3.snoc trivial⟩

theorem lastMember_ne {init : Bytes × Int32} {log : List Seen} (hi : init.1 ≠ []) (hm : ∀ m g, .member m g ∈ log → m ≠ []) :
    (lastMember init log).1 ≠ [] := by
  induction log using List.reverseRecOn with
  | nil => exact hi
  | append_singleton log e ih =>
    have := ih (fun m g h => hm m g (List.mem_append.2 (.inl h)))
    rw [lastMember_snoc]
    cases e with
    | member m g => exact hm m g (by simp)
    | _ => exact this

/-- C43: while the consumer is a member of the group, commits carry a member id.
Missing: after leaving (`C43_violated_left`). -/
theorem C43_has_member_id_partial (env : ConsumerEnv) (hmode : env.mode = .member) (as : List ConsumerAct) (s s' : SC) (hlog : s.log = [])
    (hcs : s.commits = []) (h : s.run env as = some s') (hm0 : s.memberID ≠ []) (hm : ∀ m g, .member m g ∈ s'.log → m ≠ []) :
    ∀ m g o ok, .commit m g o ok ∈ s'.log → m ≠ [] := by
  intro m g o ok hmem
  obtain ⟨pre, post, heq⟩ := List.append_of_mem hmem
  obtain ⟨h1, -⟩ := C43_current_membership_partial env hmode as s s' hlog hcs h pre _ post heq
  have := lastMember_ne (init := (s.memberID, s.generationID)) (log := pre) hm0
    (fun m g hp => hm m g (by rw [heq]; exact List.mem_append.2 (.inl hp)))
  rw [← h1] at this
  exact this

/-- C97 for members of a group: no negative position is committed, whatever goroutines commit.
Missing: consumers outside a group consumer (`C97_violated_own`). -/
theorem C97_member_partial (env : ConsumerEnv) (hmode : env.mode = .member) (as : List ConsumerAct) (s s' : SC) (hlog : s.log = [])
    (hcs : s.commits = []) (h : s.run env as = some s') : ∀ m g o ok, .commit m g o ok ∈ s'.log → 0 ≤ o := by
  intro m g o ok hmem
  obtain ⟨pre, post, heq⟩ := List.append_of_mem hmem
  exact (C43_current_membership_partial env hmode as s s' hlog hcs h pre _ post heq).2

/-! ## C96 -/

theorem onError_from (e : Err) (answer : Except Err Int64) (s : SC) :
    (onError e answer s).fromBeginning = s.fromBeginning ∧
      ∀ b x, .lookup b x ∈ (onError e answer s).log → .lookup b x ∈ s.log ∨ b = s.fromBeginning := by
  unfold onError
  simp only
  split
  · refine ⟨rfl, fun b x h => ?_⟩
    rcases List.mem_append.1 h with h | h
    · exact .inl h
    · cases List.mem_singleton.1 h; exact .inr rfl
  · split <;> exact ⟨rfl, fun b x h => .inl h⟩

/-- what a step does to the flag saying where to reset to -/
theorem step_from (env : ConsumerEnv) (a : ConsumerAct) (s s' : SC) (h : s.step env a = some s') :
    s'.fromBeginning = s.fromBeginning ∧ ∀ b x, .lookup b x ∈ s'.log → .lookup b x ∈ s.log ∨ b = s.fromBeginning := by
  cases a with
  | commitStep i ok =>
    simp only [SC.step] at h
    split at h
    · rename_i c hc
      cases h
      obtain ⟨-, -, -, -, f3⟩ := commitNext_facts env c ok s
      refine ⟨(commitNext_size env c ok s).2, fun b x h => .inl ?_⟩
      simp only at h
      rcases f3 with f3 | ⟨m, g, o', f3⟩
      · rw [f3] at h; exact h
      · rw [f3] at h; simpa using h
    · cases h
  | next answer =>
    simp only [SC.step, nextMessage, putSeen] at h
    repeat' split at h
    all_goals first | (cases h; done) | (cases h; first | exact onError_from _ _ _ | exact ⟨rfl, fun b x h => .inl (by simpa using h)⟩)
  | leader found =>
    simp only [SC.step] at h
    split at h
    · cases h
      split <;> exact ⟨rfl, fun o n h => .inl h⟩
    · cases h
  | _ =>
    simp only [SC.step] at h
    repeat' split at h
    all_goals first | (cases h; done) | (cases h; exact ⟨rfl, fun b x h => .inl (by simpa using h)⟩)

/-- C96: a consumer of a group without committed position, or of no group, started at the beginning or the end,
looks positions up at the same side whenever its position turns out to be out of range.
Missing for the full statement: starting from a committed position (`C96_violated_committed`). -/
theorem C96_configured_side_partial (env : ConsumerEnv) (mode : CommitMode) (offset committed : Int64) (hside : offset = -1 ∨ offset = -2)
    (hc : mode = .none ∨ committed < 0) (answers : List (Except Err Int64)) (n : Int32) (as : List ConsumerAct) (s' : SC)
    (h : (consumeStart mode offset committed answers n).run env as = some s') :
    ∀ b x, .lookup b x ∈ s'.log → b = decide (offset = -2) := by
  have hstart : (consumeStart mode offset committed answers n).fromBeginning = decide (offset = -2) ∧
      (consumeStart mode offset committed answers n).log = [] := by
    have hno : ¬ (mode ≠ .none ∧ (offset = -1 ∨ offset = -2) ∧ committed ≥ 0) := by
      rintro ⟨h1, -, h2⟩
      rcases hc with hc | hc
      · exact h1 hc
      · have h2 := Int64.le_iff_toInt_le.1 h2
        have hc := Int64.lt_iff_toInt_lt.1 hc
        omega
    simp only [consumeStart, if_neg hno, if_pos hside, and_self]
  suffices hs : ∀ (as : List ConsumerAct) (s : SC), s.fromBeginning = decide (offset = -2) →
      (∀ b x, .lookup b x ∈ s.log → b = decide (offset = -2)) → s.run env as = some s' →
      ∀ b x, .lookup b x ∈ s'.log → b = decide (offset = -2) from
    hs as _ hstart.1 (by rw [hstart.2]; simp) h
  intro as
  induction as with
  | nil => intro s h1 h2 h3; simp only [SC.run, Option.some.injEq] at h3; exact h3 ▸ h2
  | cons a as ih =>
    intro s h1 h2 h3
    simp only [SC.run] at h3
    cases hst : s.step env a with
    | none => rw [hst] at h3; cases h3
    | some s1 =>
      rw [hst] at h3
      obtain ⟨f1, f2⟩ := step_from env a s s1 hst
      refine ih s1 (f1.trans h1) (fun b x hm => ?_) h3
      rcases f2 b x hm with hm | hm
      · exact h2 b x hm
      · exact hm.trans h1

/-! ## C99 -/

/-- C99: `getLeaderBroker` crashes exactly if looking for the leader crashes (C93), or no connection to the leader
can be made and none was made before through `GetBroker`.
Missing: that it never does (`C99_violated_unreachable`). -/
theorem C99_crash_iff_partial {W : Type} (net : Net W) (t : Bytes) (p : Int32) (b : Brokers W) :
    (getLeaderBroker net t p b).1 = .panic ↔ (Brokers.findLeader net t p b).1 = .panic ∨
      ∃ l b1 e b2, Brokers.findLeader net t p b = (.ok l, b1) ∧ l ≠ -1 ∧ Brokers.newBroker net l b1 = (.error e, b2) ∧
        b2.cache.get l = none := by
  unfold getLeaderBroker
  rcases Brokers.findLeader net t p b with ⟨l | e | _, b1⟩
  · by_cases hl : l = -1
    · simp [hl]
    · simp only [hl, if_false]
      rcases hn : Brokers.newBroker net l b1 with ⟨e | h, b2⟩
      · cases hg : b2.cache.get l with
        | some x =>
          simp only [hg, reduceCtorEq, false_or, false_iff]
          rintro ⟨l', b1', e', b2', h1, -, h2, h3⟩
          cases h1
          rw [hn] at h2
          cases h2
          rw [hg] at h3
          cases h3
        | none => simp only [hg, reduceCtorEq, false_or, true_iff]; exact ⟨l, b1, e, b2, rfl, hl, hn, hg⟩
      · simp only [reduceCtorEq, false_or, false_iff]
        rintro ⟨l', b1', e', b2', h1, -, h2, h3⟩
        cases h1
        rw [hn] at h2
        cases h2
  · simp
  · simp

/-- C99 does not hold: the leader of partition 0 cannot be reached. -/
theorem C99_violated_unreachable : (getLeaderBroker halfNet [116] 0 (demoBrokers halfNet)).1 = .panic := by decide +kernel

example : (getLeaderBroker goodNet [116] 0 (demoBrokers goodNet)).1 = .ok (3, 2) := by decide +kernel

/-! ## C37 and the decoder -/

theorem ascending_of_seen : ∀ (ms : List FullMessage) (L : List Kafka.Delivered) (start : Int),
    ms.map FullMessage.seen = L.map some → L.Pairwise (fun a b => a.message.offset < b.message.offset) →
    (∀ d ∈ L, start ≤ d.message.offset ∧ d.message.offset + 1 < 2 ^ 63) → Ascending start ms
  | [], _, _, _, _, _ => trivial
  | x :: ms, [], _, h, _, _ => by simp at h
  | x :: ms, d :: L, start, h, hp, hb => by
    simp only [List.map_cons, List.cons.injEq] at h
    obtain ⟨hx, hr⟩ := h
    rw [List.pairwise_cons] at hp
    have hd := hb d (List.mem_cons_self ..)
    unfold FullMessage.seen at hx
    split at hx
    · cases hx
    · cases hm : x.message with
      | none => rw [hm] at hx; cases hx
      | some m =>
        rw [hm] at hx
        have ho : m.offset.toInt = d.message.offset := by
          have := Option.some.inj hx
          rw [← this]
          rfl
        unfold Ascending
        rw [hm]
        refine ⟨by rw [ho]; exact hd.1, by rw [ho]; exact hd.2, ?_⟩
        rw [ho]
        refine ascending_of_seen ms L _ hr hp.2 (fun d' hd' => ?_)
        have := hp.1 d' hd'
        have := hb d' (List.mem_cons_of_mem _ hd')
        omega

/-- C37: what the decoder delivers from a partition's log as the broker keeps it, with increasing offsets, is as
`C37_increasing` needs it. -/
theorem C37_decoder_ascending (env : FetchEnv) (hacc : ∀ n, env.accept n = true)
    (unpack : Nat → Bytes → Option Bytes) (xs : List Kafka.Packed) (hx : ∀ x ∈ xs, LogFits env unpack x)
    (hord : (xs.flatMap fun x => Kafka.stored x.batch).Pairwise (fun a b => a.offset < b.offset))
    (hmax : ∀ m ∈ xs.flatMap fun x => Kafka.stored x.batch, m.offset + 1 < 2 ^ 63)
    (h : Kafka.FetchHeader) (topic : Bytes) (p : Kafka.FetchPartition) (hdata : p.data = xs.flatMap Kafka.packed)
    (hne : p.data ≠ []) (rest : Bytes) (s : SD) (hs : s.delivered = []) (w : OnWire env h topic p rest s) :
    ∃ s', streamDecode env s = .ok () s' ∧ Ascending env.startOffset.toInt s'.delivered := by
  obtain ⟨s', ms, h1, h2, -, -, h3⟩ := C15_fetch_delivery_partial env hacc unpack xs hx h topic p hdata hne rest s w
  refine ⟨s', h1, ?_⟩
  rw [h2, hs, List.nil_append]
  simp only at h3
  split at h3
  · rw [h3]; trivial
  · refine ascending_of_seen ms _ _ h3 ?_ (fun d hd => ?_)
    · unfold expected
      rw [List.pairwise_map]
      exact hord.filter _
    · unfold expected at hd
      obtain ⟨m, hm, rfl⟩ := List.mem_map.1 hd
      rw [List.mem_filter] at hm
      exact ⟨by simpa using hm.2, hmax m hm.1⟩

/-! ## Cases -/

/-- a message at an offset -/
def at' (o : Int64) : FullMessage := ⟨[116], 0, none, some { offset := o }⟩
/-- an error -/
def bad (e : Err) : FullMessage := ⟨[], -1, some e, none⟩
/-- what was seen, in a comparable form -/
def Seen.brief : Seen → String × Int × Int
  | .fetch o n => ("fetch", o.toInt, n.toInt)
  | .put m => ("put", m.offset.toInt, 0)
  | .got m => ("got", m.offset.toInt, 0)
  | .lookup b (.ok o) => ("lookup", if b then -2 else -1, o.toInt)
  | .lookup b (.error _) => ("lookup failed", if b then -2 else -1, 0)
  | .commit _ g o ok => (if ok then "commit" else "commit failed", o.toInt, g.toInt)
  | .member _ g => ("member", 0, g.toInt)

/-- what is seen in a run -/
def seenIn (env : ConsumerEnv) (s : SC) (as : List ConsumerAct) : Option (List (String × Int × Int)) :=
  (s.run env as).map fun t => t.log.map Seen.brief

/-- take a message and advance -/
def take' : List ConsumerAct := [.next (.error .eof), .advance]
/-- a call of `CommitOffset` by a consumer committing for itself -/
def ownCommit (ok : Bool) : List ConsumerAct := [.commit, .commitStep 0 ok, .commitStep 0 ok, .commitStep 0 ok]

/-- C37: two fetches, an error in between, a retry; the third fetch starts after the last message. -/
example : seenIn { mode := .none } { offset := 5, fetchMaxBytes := 100 }
    ([.fetched [at' 5, at' 7, bad .eof]] ++ take' ++ take' ++ [.next (.error .eof), .fetchFailed, .fetched [at' 8], .next (.error .eof),
      .receive, .advance, .next (.error .eof), .fetched []]) =
    some [("fetch", 5, 100), ("put", 5, 0), ("put", 7, 0), ("fetch", 8, 100), ("fetch", 8, 100), ("put", 8, 0), ("got", 5, 0),
      ("fetch", 9, 100)] := by decide +kernel

example : Fed (fun o ms => Ascending o.toInt ms) { mode := .none } [.fetched [at' 5, at' 7, bad .eof]] { offset := 5, fetchMaxBytes := 100 } := by
  refine ⟨?_, fun _ _ => trivial⟩
  intro ms h
  cases h
  unfold Ascending at' bad
  simp only [Ascending]
  decide

/-- C38, C39, C40: a member commits twice, the first commit failing; the third call has nothing to send. -/
example : seenIn { mode := .member, autoOnly := true } { offset := 5, fetchMaxBytes := 100, memberID := [109], generationID := 3 }
    ([.fetched [at' 5, at' 6]] ++ take' ++ [.commit, .commitStep 0 false, .commitStep 0 false] ++ take' ++
      [.commitStep 0 false, .commitStep 0 false] ++ commitCall true ++ [.commitStep 0 true, .commit, .commitStep 0 true]) =
    some [("fetch", 5, 100), ("put", 5, 0), ("put", 6, 0), ("commit failed", 6, 3), ("commit", 7, 3)] := by decide +kernel

/-- C38 with an unbuffered channel -/
example : seenIn { mode := .own, capacity := 0 } { offset := 5, fetchMaxBytes := 100 }
    ([.fetched [at' 5]] ++ take' ++ ownCommit true) =
    some [("fetch", 5, 100), ("put", 5, 0), ("got", 5, 0), ("commit", 6, -1)] := by decide +kernel

/-- C38 does not hold for buffered channels, and `Consume(…, nil)` makes a channel for 100 messages: the position after
message 5 is committed although nobody received the message. -/
theorem C38_violated_buffered : ∃ (as : List ConsumerAct) (s' : SC),
    SC.run { mode := .own } as { offset := 5, fetchMaxBytes := 100 } = some s' ∧ ¬ Judged (CommitFrom .got 5) s'.log := by
  refine ⟨[.fetched [at' 5]] ++ take' ++ ownCommit true, _, rfl, fun h => ?_⟩
  have := h [.fetch 5 100, .put { offset := 5 }] (.commit [] (-1) 6 true) [] rfl
  rcases this with h | ⟨b, a, h, -⟩ | ⟨m, h, -⟩
  · exact absurd h (by decide)
  · simp at h
  · simp at h

/-- C39 does not hold if the user calls `CommitOffset` while the auto-commit goroutine does: 7 is committed, then 6. -/
theorem C39_violated_two_callers : ∃ (as : List ConsumerAct) (s' : SC),
    SC.run { mode := .member } as { offset := 5, fetchMaxBytes := 100, memberID := [109] } = some s' ∧ ¬ Judged CommitMono s'.log := by
  refine ⟨[.fetched [at' 5, at' 6]] ++ take' ++ [.commit, .commitStep 0 true, .commitStep 0 true, .commitStep 0 true] ++ take' ++
    [.commit, .commitStep 1 true, .commitStep 1 true, .commitStep 1 true, .commitStep 1 true, .commitStep 0 true], _, rfl, fun h => ?_⟩
  have := h [.fetch 5 100, .put { offset := 5 }, .put { offset := 6 }, .commit [109] 0 7 true] (.commit [109] 0 6 true) [] rfl
    [109] 0 7 true (by simp)
  exact absurd this (by decide)

/-- C40 does not hold for a consumer committing for itself: the position is read again when it is sent, but what was
read before is recorded; so 7 is committed, and then again. -/
theorem C40_violated_committed_again : ∃ (as : List ConsumerAct) (s' : SC),
    SC.run { mode := .own, autoOnly := true } as { offset := 5, fetchMaxBytes := 100 } = some s' ∧ ¬ Judged CommitNew s'.log := by
  refine ⟨[.fetched [at' 5, at' 6]] ++ take' ++ [.commit, .commitStep 0 true, .commitStep 0 true] ++ take' ++
    [.commitStep 0 true, .commitStep 0 true] ++ ownCommit true, _, rfl, fun h => ?_⟩
  exact h [.fetch 5 100, .put { offset := 5 }, .put { offset := 6 }, .commit [] (-1) 7 true] (.commit [] (-1) 7 true) [] rfl rfl

/-- a fetch answered with "too small" -/
def tooSmallFetch : List ConsumerAct := [.fetched [bad .maxBytesTooSmall], .next (.error .eof)]

example : tooSmalls { mode := .none } (tooSmallFetch ++ tooSmallFetch) { offset := 5, fetchMaxBytes := 100 } = 2 ∧
    seenIn { mode := .none } { offset := 5, fetchMaxBytes := 100 } (tooSmallFetch ++ tooSmallFetch ++ [.fetchFailed]) =
      some [("fetch", 5, 100), ("fetch", 5, 200), ("fetch", 5, 400)] := by decide +kernel

/-- C41 does not hold: from the default of 10 MiB (config.go:121), after eight too-small answers a negative number of
bytes is asked for; after eleven it is 0, and stays so. -/
theorem C41_violated :
    (seenIn { mode := .none } { offset := 5, fetchMaxBytes := 10 * 1024 * 1024 }
      ((List.replicate 8 tooSmallFetch).flatten ++ [.fetchFailed])).bind List.getLast? = some ("fetch", 5, -1610612736) ∧
    (seenIn { mode := .none } { offset := 5, fetchMaxBytes := 10 * 1024 * 1024 }
      ((List.replicate 11 tooSmallFetch).flatten ++ [.fetchFailed])).bind List.getLast? = some ("fetch", 5, 0) := by decide +kernel

/-- C42, as it should be -/
example : seenIn { mode := .none } { offset := 5, fetchMaxBytes := 100, fromBeginning := true }
    [.fetched [bad (.kafka 1)], .next (.ok 20), .fetched [at' 20]] =
    some [("fetch", 5, 100), ("lookup", -2, 20), ("fetch", 20, 100)] := by decide +kernel

/-- C42 does not hold: when the look-up fails, the next fetch starts at -1. -/
theorem C42_violated : seenIn { mode := .none } { offset := 5, fetchMaxBytes := 100 }
    [.fetched [bad (.kafka 1)], .next (.error .timeout), .fetchFailed] =
    some [("fetch", 5, 100), ("lookup failed", -1, 0), ("fetch", -1, 100)] := by decide +kernel

/-- C43 does not hold: the group is left between the check and the building of the request, and the commit carries an
empty member id. -/
theorem C43_violated_left : ∃ (as : List ConsumerAct) (s' : SC),
    SC.run { mode := .member } as { offset := 5, fetchMaxBytes := 100, memberID := [109], generationID := 3 } = some s' ∧
      .commit [] 3 5 false ∈ s'.log :=
  ⟨[.commit, .commitStep 0 false, .commitStep 0 false, .commitStep 0 false, .membership [] 3, .commitStep 0 false], _, rfl, by
    simp [commitNext]⟩

/-- C43, as it should be -/
example : ((SC.run { mode := .member } ([.membership [110] 4] ++ commitCall true)
    { offset := 5, fetchMaxBytes := 100, memberID := [109], generationID := 3 }).map fun t => t.log.map Seen.brief) =
    some [("member", 0, 4), ("commit", 5, 4)] := by decide +kernel

/-- C96, as it should be -/
example : (consumeStart .own (-2) (-1) [.error .timeout, .ok 3] 100).fromBeginning = true ∧
    (consumeStart .own (-2) (-1) [.error .timeout, .ok 3] 100).offset = 3 := by decide +kernel

/-- C96 does not hold: a consumer told to start from the beginning if it has no valid position goes to the end when
its committed position is out of range. -/
theorem C96_violated_committed : seenIn { mode := .own } (consumeStart .own (-2) 7 [] 100)
    [.fetched [bad (.kafka 1)], .next (.ok 900), .fetchFailed] =
    some [("fetch", 7, 100), ("lookup", -1, 900), ("fetch", 900, 100)] := by decide +kernel

/-- C97 does not hold for a consumer committing for itself: after a failed look-up -1 is committed. -/
theorem C97_violated_own : seenIn { mode := .own } { offset := 5, fetchMaxBytes := 100 }
    ([.fetched [bad (.kafka 1)], .next (.error .timeout)] ++ ownCommit true) =
    some [("fetch", 5, 100), ("lookup failed", -1, 0), ("commit", -1, -1)] := by decide +kernel

/-! ## C98 -/

/-- a partition answered with offset-out-of-range -/
def outOfRange : Bytes := Kafka.fetchResponse 10 sampleHeader [([116], [{ samplePartition [] with errorCode := 1 }])]

/-- the unread bytes of the response when the decoder has handed over all it will -/
def unreadAtError (env : FetchEnv) (resp : Bytes) : Option (List (Option Err) × Nat) :=
  match (do let n ← decodeFetchHeader env.version; responsesLoop env n) (conn resp.length [resp]) with
  | .ok () s => some (s.delivered.map FullMessage.error, s.rd.limit)
  | _ => none

/-- C98 does not hold: when the consumer is handed the error, and goes on to ask for a position on the same
connection, part of the response is still unread; the decoder reads it only afterwards. -/
theorem C98_violated_unread : unreadAtError {} outOfRange = some ([some (.kafka 1)], 32) := by decide +kernel

end Healer
