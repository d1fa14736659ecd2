import Verif.Props.Exact
import Verif.Props.Consumer2

/-!
# C141: restarting from the committed position loses nothing

Consumers of a partition come and go.  Each is started with the first or last position as its wish, gets the position
the group has committed, consumes, commits, and ends at any moment: a crash is a run that does not go on.
-/

namespace Healer

/-! ## Specification -/

/-- A consumer from `Consume` until it ends: what `Consume` was given and told, and what happened. -/
structure Life where
  env : ConsumerEnv
  offset : Int64
  committed : Int64
  answers : List (Except Err Int64) := []
  fetchMaxBytes : Int32
  acts : List ConsumerAct
  final : SC

/-- the state in which `Consume` leaves the consumer -/
def Life.start (l : Life) : SC := consumeStart l.env.mode l.offset l.committed l.answers l.fetchMaxBytes

/-- It ran like this, its fetches being answered from the log `L`, and it was never told that its position is out of range. -/
structure Life.Ran (L : List Kafka.Stored) (l : Life) : Prop where
  run : l.start.run l.env l.acts = some l.final
  fed : Fed (fun o ms => FromLog (fromOffset L o.toInt) ms) l.env l.acts l.start
  inRange : NoLookup l.final.log

/-- It was started from a position which `e` committed, whether `e` learnt that the commit succeeded or not. -/
def Life.After (l e : Life) : Prop :=
  l.env.mode ≠ .none ∧ (l.offset = -1 ∨ l.offset = -2) ∧ 0 ≤ l.committed.toInt ∧ ∃ m g ok, Seen.commit m g l.committed ok ∈ e.final.log

/-- The lives of a partition's consumers, the latest first: each starts where the first one did, or at a position
committed by an earlier one, which may still be running. -/
def Lives (start : Int64) : List Life → Prop
  | [] => True
  | l :: earlier => (l.start.offset = start ∨ ∃ e ∈ earlier, l.After e) ∧ Lives start earlier

/-! ## Proof -/

theorem sinceLookup_all : ∀ (log : List Seen), NoLookup log → ∀ m, m ∈ sinceLookup log ↔ .put m ∈ log := by
  intro log
  induction log using List.reverseRecOn with
  | nil => intro _ m; simp [sinceLookup]
  | append_singleton log e ih =>
    intro h m
    have ih := ih (fun b a hm => h b a (by simp [hm])) m
    rw [sinceLookup_snoc]
    cases e with
    | put x => simp [ih]
    | lookup b a => exact absurd (by simp) (h b a)
    | _ => simp [ih]

theorem lastReset_none : ∀ (log : List Seen) (start : Int64), NoLookup log → lastReset start log = start := by
  intro log start
  induction log using List.reverseRecOn with
  | nil => intro _; rfl
  | append_singleton log e ih =>
    intro h
    have ih := ih (fun b a hm => h b a (by simp [hm]))
    rw [lastReset_snoc]
    cases e with
    | lookup b a => exact absurd (by simp) (h b a)
    | _ => exact ih

theorem consumeStart_fresh (mode : CommitMode) (o c : Int64) (as : List (Except Err Int64)) (n : Int32) :
    (consumeStart mode o c as n).log = [] ∧ (consumeStart mode o c as n).loop = .top ∧ (consumeStart mode o c as n).commits = [] := by
  simp only [consumeStart]
  split <;> split <;> exact ⟨rfl, rfl, rfl⟩

theorem Life.After.start_eq {l e : Life} (h : l.After e) : l.start.offset = l.committed := by
  obtain ⟨h1, h2, h3, -⟩ := h
  have hge : l.committed ≥ 0 := Int64.le_iff_toInt_le.2 h3
  have hne : ¬ (l.committed = -1 ∨ l.committed = -2) := by
    rintro (h | h) <;> rw [h] at h3 <;> exact absurd h3 (by decide)
  unfold Life.start consumeStart
  simp only [h1, h2, hge, ne_eq, not_false_eq_true, and_self, if_true, hne, if_false]

/-- In a list that begins an ascending one, everything before a member is a member. -/
theorem prefix_below {P X : List Kafka.Stored} (hX : X.Pairwise fun a b => a.offset < b.offset) (hp : P <+: X) {p x : Kafka.Stored}
    (hm : p ∈ P) (hx : x ∈ X) (hle : x.offset ≤ p.offset) : x ∈ P := by
  obtain ⟨R, rfl⟩ := hp
  rcases List.mem_append.1 hx with h | h
  · exact h
  · have := (List.pairwise_append.1 hX).2.2 p hm x h
    omega

/-- What one life hands over has no gap from its start on. -/
theorem Life.Ran.covers {L : List Kafka.Stored} (hL : L.Pairwise fun a b => a.offset < b.offset) (hmax : ∀ m ∈ L, m.offset + 1 < 2 ^ 63)
    {l : Life} (h : l.Ran L) {p : Message} (hp : Seen.put p ∈ l.final.log) {x : Kafka.Stored} (hx : x ∈ L)
    (h1 : l.start.offset.toInt ≤ x.offset) (h2 : x.offset ≤ p.offset.toInt) : ∃ q, Seen.put q ∈ l.final.log ∧ q.seen = x := by
  obtain ⟨f1, f2, -⟩ := consumeStart_fresh l.env.mode l.offset l.committed l.answers l.fetchMaxBytes
  have hpre := C37_exactly_once l.env L hL hmax l.acts l.start l.final f1 f2 h.fed h.run
  rw [lastReset_none _ _ h.inRange] at hpre
  have hmem : p.seen ∈ (sinceLookup l.final.log).map Message.seen := List.mem_map.2 ⟨p, (sinceLookup_all _ h.inRange p).2 hp, rfl⟩
  have hin : x ∈ fromOffset L l.start.offset.toInt := List.mem_filter.2 ⟨hx, by simpa using h1⟩
  have hX : (fromOffset L l.start.offset.toInt).Pairwise fun a b => a.offset < b.offset := hL.filter _
  obtain ⟨q, hq, rfl⟩ := List.mem_map.1 (prefix_below hX hpre hmem hin h2)
  exact ⟨q, (sinceLookup_all _ h.inRange q).1 hq, rfl⟩

/-- A position committed in a life is the one it was started at, or one past a message handed over. -/
theorem Life.Ran.commit_from {L : List Kafka.Stored} {l : Life} (h : l.Ran L) {m : Bytes} {g : Int32} {o : Int64} {ok : Bool}
    (hc : Seen.commit m g o ok ∈ l.final.log) : o = l.start.offset ∨ ∃ p, Seen.put p ∈ l.final.log ∧ o = p.offset + 1 := by
  obtain ⟨f1, f2, f3⟩ := consumeStart_fresh l.env.mode l.offset l.committed l.answers l.fetchMaxBytes
  obtain ⟨pre, post, hlog⟩ := List.append_of_mem hc
  rcases C38_not_ahead_of_channel_partial l.env l.acts l.start l.final f1 f2 f3 h.run pre _ post hlog with h1 | ⟨b, a, h1, -⟩ | ⟨p, h1, h2⟩
  · exact .inl h1
  · exact absurd (by rw [hlog]; simp [h1]) (h.inRange b a)
  · exact .inr ⟨p, by rw [hlog]; simp [h1], h2⟩

/-- Everything in `[start, o)` was handed over by one of the lives. -/
def Covered (L : List Kafka.Stored) (lives : List Life) (start : Int64) (o : Int) : Prop :=
  ∀ x ∈ L, start.toInt ≤ x.offset → x.offset < o → ∃ l ∈ lives, ∃ q, Seen.put q ∈ l.final.log ∧ q.seen = x

theorem Covered.mono {L : List Kafka.Stored} {lives lives' : List Life} {start : Int64} {o : Int} (h : Covered L lives start o)
    (hl : ∀ l ∈ lives, l ∈ lives') : Covered L lives' start o := fun x hx h1 h2 => by
  obtain ⟨l, hm, r⟩ := h x hx h1 h2
  exact ⟨l, hl l hm, r⟩

theorem toInt_succ_le (o : Int64) : (o + 1).toInt ≤ o.toInt + 1 := by
  have h1 := o.toInt_lt
  have h2 := o.le_toInt
  rw [Int64.toInt_add, show (1 : Int64).toInt = 1 from rfl]
  rw [Int.bmod_def]
  split <;> omega

theorem covered_all {L : List Kafka.Stored} (hL : L.Pairwise fun a b => a.offset < b.offset) (hmax : ∀ m ∈ L, m.offset + 1 < 2 ^ 63) (start : Int64) :
    ∀ (lives : List Life), Lives start lives → (∀ l ∈ lives, l.Ran L) → ∀ l ∈ lives,
      Covered L lives start l.start.offset.toInt ∧ (∀ p, Seen.put p ∈ l.final.log → Covered L lives start (p.offset.toInt + 1)) ∧
      ∀ m g o ok, Seen.commit m g o ok ∈ l.final.log → Covered L lives start o.toInt := by
  intro lives
  induction lives with
  | nil => intro _ _ l hl; cases hl
  | cons l earlier ih =>
    intro hl hr
    have ih := ih hl.2 fun e he => hr e (by simp [he])
    have sub : ∀ e ∈ earlier, e ∈ l :: earlier := fun e he => by simp [he]
    intro k hk
    rcases List.mem_cons.1 hk with rfl | hk
    · have hran := hr k (by simp)
      have hstart : Covered L (k :: earlier) start k.start.offset.toInt := by
        rcases hl.1 with h | ⟨e, he, ha⟩
        · rw [h]; intro x _ h1 h2; omega
        · rw [ha.start_eq]
          obtain ⟨-, -, -, m, g, ok, hc⟩ := ha
          exact ((ih e he).2.2 m g _ ok hc).mono sub
      have hput : ∀ p, Seen.put p ∈ k.final.log → Covered L (k :: earlier) start (p.offset.toInt + 1) := by
        intro p hp x hx h1 h2
        by_cases h : k.start.offset.toInt ≤ x.offset
        · obtain ⟨q, hq⟩ := hran.covers hL hmax hp hx h (by omega)
          exact ⟨k, by simp, q, hq⟩
        · exact hstart x hx h1 (by omega)
      refine ⟨hstart, hput, fun m g o ok hc => ?_⟩
      rcases hran.commit_from hc with rfl | ⟨p, hp, rfl⟩
      · exact hstart
      · intro x hx h1 h2
        exact hput p hp x hx h1 (by have := toInt_succ_le p.offset; omega)
    · obtain ⟨h1, h2, h3⟩ := ih k hk
      exact ⟨h1.mono sub, fun p hp => (h2 p hp).mono sub, fun m g o ok hc => (h3 m g o ok hc).mono sub⟩

/-- C141: let `L` be the messages of the partition, and let consumers of it be started one after the other, each from a position an earlier
one committed (whether that commit was answered or not, and also while the earlier one still runs), and end at any moment.  Then whatever
position is committed, and whatever message is handed over, all messages before it, back to where the first consumer started, have been put
into the channel of some consumer.
Missing for the full statement: what is in the channel need not have been received (`C141_violated_buffered`; see
`C141_received_partial`). -/
theorem C141_restart_partial (L : List Kafka.Stored) (hL : L.Pairwise fun a b => a.offset < b.offset) (hmax : ∀ m ∈ L, m.offset + 1 < 2 ^ 63)
    (start : Int64) (lives : List Life) (hl : Lives start lives) (hr : ∀ l ∈ lives, l.Ran L) (l : Life) (hm : l ∈ lives) (o : Int)
    (ho : (∃ m g v ok, Seen.commit m g v ok ∈ l.final.log ∧ o = v.toInt) ∨ ∃ p, Seen.put p ∈ l.final.log ∧ o = p.offset.toInt) :
    ∀ x ∈ L, start.toInt ≤ x.offset → x.offset < o → ∃ l' ∈ lives, ∃ q, Seen.put q ∈ l'.final.log ∧ q.seen = x := by
  obtain ⟨-, h2, h3⟩ := covered_all hL hmax start lives hl hr l hm
  rcases ho with ⟨m, g, v, ok, hc, rfl⟩ | ⟨p, hp, rfl⟩
  · exact h3 m g v ok hc
  · intro x hx a b
    exact h2 p hp x hx a (by omega)

theorem got_of_put (env : ConsumerEnv) (hcap : env.capacity = 0) (as : List ConsumerAct) (s s' : SC) (hlog : s.log = [])
    (h : s.run env as = some s') : ∀ p, Seen.put p ∈ s'.log → Seen.got p ∈ s'.log := by
  refine run_induction (P := fun t => ∀ p, Seen.put p ∈ t.log → Seen.got p ∈ t.log) ?_ as s s' (Fed.any env as s) h (by simp [hlog])
  intro t t' hc hp p hput
  cases hc with
  | quiet _ ho hc hoc hl => rw [hl] at hput ⊢; exact hp p hput
  | fetch _ hs =>
    rw [hs] at hput ⊢
    simp only [List.mem_append, List.mem_singleton, reduceCtorEq, or_false] at hput ⊢
    exact hp p hput
  | put m x ms q =>
    simp only [putSeen, hcap, if_true, List.mem_append, List.mem_cons, Seen.put.injEq, reduceCtorEq, Seen.got.injEq, List.not_mem_nil, or_false, false_or] at hput ⊢
    rcases hput with h | h
    · exact .inl (hp p h)
    · exact .inr h
  | advance m ms hs => exact hp p hput
  | lookup _ a b hin ho htop hlog =>
    rw [hlog] at hput ⊢
    simp only [List.mem_append, List.mem_singleton, reduceCtorEq, or_false] at hput ⊢
    exact hp p hput
  | got m q =>
    simp only [List.mem_append, List.mem_singleton, reduceCtorEq, or_false] at hput ⊢
    exact .inl (hp p hput)
  | spawn => exact hp p hput
  | commit _ i c ok hc ho hl hm hcs hoc hlog =>
    have hfacts : (commitNext env c ok t).2.log = t.log ∨ ∃ m g o b, (commitNext env c ok t).2.log = t.log ++ [.commit m g o b] := by
      cases c with
      | start => simp only [commitNext]; split <;> exact .inl rfl
      | differs => exact .inl rfl
      | read o =>
        simp only [commitNext]
        cases env.mode with
        | none => exact .inl rfl
        | own => exact .inr ⟨_, _, _, _, rfl⟩
        | member => simp only; split <;> exact .inl rfl
      | checked o => exact .inr ⟨_, _, _, _, rfl⟩
      | acknowledged o => exact .inl rfl
    rw [hlog] at hput ⊢
    rcases hfacts with h | ⟨m, g, o, b, h⟩
    · rw [h] at hput ⊢; exact hp p hput
    · rw [h] at hput ⊢
      simp only [List.mem_append, List.mem_singleton, reduceCtorEq, or_false] at hput ⊢
      exact hp p hput
  | member m g =>
    simp only [List.mem_append, List.mem_singleton, reduceCtorEq, or_false] at hput ⊢
    exact hp p hput

/-- C141, in full for unbuffered channels: before a committed position, or a message handed over, all messages back to the first
start have been received by the user.
Missing: buffered channels (`C141_violated_buffered`). -/
theorem C141_received_partial (L : List Kafka.Stored) (hL : L.Pairwise fun a b => a.offset < b.offset) (hmax : ∀ m ∈ L, m.offset + 1 < 2 ^ 63)
    (start : Int64) (lives : List Life) (hl : Lives start lives) (hr : ∀ l ∈ lives, l.Ran L) (hcap : ∀ l ∈ lives, l.env.capacity = 0)
    (l : Life) (hm : l ∈ lives) (o : Int)
    (ho : (∃ m g v ok, Seen.commit m g v ok ∈ l.final.log ∧ o = v.toInt) ∨ ∃ p, Seen.put p ∈ l.final.log ∧ o = p.offset.toInt) :
    ∀ x ∈ L, start.toInt ≤ x.offset → x.offset < o → ∃ l' ∈ lives, ∃ q, Seen.got q ∈ l'.final.log ∧ q.seen = x := by
  intro x hx h1 h2
  obtain ⟨l', hm', q, hq, rfl⟩ := C141_restart_partial L hL hmax start lives hl hr l hm o ho x hx h1 h2
  obtain ⟨f1, -, -⟩ := consumeStart_fresh l'.env.mode l'.offset l'.committed l'.answers l'.fetchMaxBytes
  exact ⟨l', hm', q, got_of_put l'.env (hcap l' hm') l'.acts l'.start l'.final f1 (hr l' hm').run q hq, rfl⟩

/-! ## A case, and a counterexample -/

/-- a consumer started at 5 which hands over the message 5, commits 6 and crashes; the user has not taken the message yet -/
def firstLife (capacity : Nat) : Life where
  env := { mode := .own, capacity := capacity }
  offset := 5
  committed := -1
  fetchMaxBytes := 100
  acts := [.fetched [at' 5, at' 7]] ++ take' ++ ownCommit true
  final := ((consumeStart .own 5 (-1) [] 100).run { mode := .own, capacity := capacity } ([.fetched [at' 5, at' 7]] ++ take' ++ ownCommit true)).getD
    { offset := 0, fetchMaxBytes := 0 }

/-- its successor, told that 6 is committed -/
def secondLife (capacity : Nat) : Life where
  env := { mode := .own, capacity := capacity }
  offset := -1
  committed := 6
  fetchMaxBytes := 100
  acts := [.fetched [at' 7]] ++ take'
  final := ((consumeStart .own (-1) 6 [] 100).run { mode := .own, capacity := capacity } ([.fetched [at' 7]] ++ take')).getD { offset := 0, fetchMaxBytes := 0 }

theorem twoLives (capacity : Nat) (h : capacity = 0 ∨ capacity = 100) : Lives 5 [secondLife capacity, firstLife capacity] ∧
    ∀ l ∈ [secondLife capacity, firstLife capacity], l.Ran threeStored := by
  have first : FromLog (fromOffset threeStored 5) [at' 5, at' 7] := by
    intro _ m hm; cases hm
    refine ⟨_, rfl, ?_⟩
    intro _ m hm; cases hm
    exact ⟨_, rfl, trivial⟩
  have second : FromLog (fromOffset threeStored 6) [at' 7] := by
    intro _ m hm; cases hm
    exact ⟨_, rfl, trivial⟩
  rcases h with rfl | rfl
  · refine ⟨⟨.inr ⟨firstLife 0, by simp, by decide, .inl rfl, by decide, [], -1, true, ?_⟩, .inl rfl, trivial⟩, fun l hl => ?_⟩
    · exact List.mem_of_getElem? (i := 3) rfl
    · simp only [List.mem_cons, List.not_mem_nil, or_false] at hl
      rcases hl with rfl | rfl
      · refine ⟨rfl, ?_, fun b a h => ?_⟩
        · refine ⟨fun ms h => by cases h; exact second, fun s1 h1 => ?_⟩
          cases h1
          refine ⟨fun ms h => (nomatch h), fun s1 h1 => ?_⟩
          cases h1
          exact ⟨fun ms h => (nomatch h), fun s1 h1 => trivial⟩
        · change Seen.lookup b a ∈ [Seen.fetch 6 100, .put { offset := 7 }, .got { offset := 7 }] at h
          simp at h
      · refine ⟨rfl, ?_, fun b a h => ?_⟩
        · refine ⟨fun ms h => by cases h; exact first, fun s1 h1 => ?_⟩
          cases h1
          refine ⟨fun ms h => (nomatch h), fun s1 h1 => ?_⟩
          cases h1
          refine ⟨fun ms h => (nomatch h), fun s1 h1 => ?_⟩
          cases h1
          refine ⟨fun ms h => (nomatch h), fun s1 h1 => ?_⟩
          cases h1
          refine ⟨fun ms h => (nomatch h), fun s1 h1 => ?_⟩
          cases h1
          refine ⟨fun ms h => (nomatch h), fun s1 h1 => ?_⟩
          cases h1
          refine ⟨fun ms h => (nomatch h), fun s1 h1 => ?_⟩
          cases h1
          trivial
        · change Seen.lookup b a ∈ [Seen.fetch 5 100, .put { offset := 5 }, .got { offset := 5 }, .commit [] (-1) 6 true] at h
          simp at h
  · refine ⟨⟨.inr ⟨firstLife 100, by simp, by decide, .inl rfl, by decide, [], -1, true, ?_⟩, .inl rfl, trivial⟩, fun l hl => ?_⟩
    · exact List.mem_of_getElem? (i := 2) rfl
    · simp only [List.mem_cons, List.not_mem_nil, or_false] at hl
      rcases hl with rfl | rfl
      · refine ⟨rfl, ?_, fun b a h => ?_⟩
        · refine ⟨fun ms h => by cases h; exact second, fun s1 h1 => ?_⟩
          cases h1
          refine ⟨fun ms h => (nomatch h), fun s1 h1 => ?_⟩
          cases h1
          exact ⟨fun ms h => (nomatch h), fun s1 h1 => trivial⟩
        · change Seen.lookup b a ∈ [Seen.fetch 6 100, .put { offset := 7 }] at h
          simp at h
      · refine ⟨rfl, ?_, fun b a h => ?_⟩
        · refine ⟨fun ms h => by cases h; exact first, fun s1 h1 => ?_⟩
          cases h1
          refine ⟨fun ms h => (nomatch h), fun s1 h1 => ?_⟩
          cases h1
          refine ⟨fun ms h => (nomatch h), fun s1 h1 => ?_⟩
          cases h1
          refine ⟨fun ms h => (nomatch h), fun s1 h1 => ?_⟩
          cases h1
          refine ⟨fun ms h => (nomatch h), fun s1 h1 => ?_⟩
          cases h1
          refine ⟨fun ms h => (nomatch h), fun s1 h1 => ?_⟩
          cases h1
          refine ⟨fun ms h => (nomatch h), fun s1 h1 => ?_⟩
          cases h1
          trivial
        · change Seen.lookup b a ∈ [Seen.fetch 5 100, .put { offset := 5 }, .commit [] (-1) 6 true] at h
          simp at h

/-- the two lives meet the hypotheses, and 7 is handed over -/
example : Lives 5 [secondLife 0, firstLife 0] ∧ (∀ l ∈ [secondLife 0, firstLife 0], l.Ran threeStored) ∧
    (threeStored.Pairwise fun a b => a.offset < b.offset) ∧ (∀ m ∈ threeStored, m.offset + 1 < 2 ^ 63) ∧
    Seen.put { offset := 7 } ∈ (secondLife 0).final.log :=
  ⟨(twoLives 0 (.inl rfl)).1, (twoLives 0 (.inl rfl)).2, by decide, by decide, List.mem_of_getElem? (i := 1) rfl⟩

/-- C141 does not hold with the channel `Consume` makes: the message 5 is in the channel and its successor committed when the process ends, so
the next consumer starts after it, and the user never gets it. -/
theorem C141_violated_buffered : ∃ lives : List Life, Lives 5 lives ∧ (∀ l ∈ lives, l.Ran threeStored ∧ l.env.capacity = 100) ∧
    (∃ l ∈ lives, Seen.commit [] (-1) 6 true ∈ l.final.log) ∧ (∃ l ∈ lives, Seen.put { offset := 7 } ∈ l.final.log) ∧
    ({ offset := 5 } : Message).seen ∈ threeStored ∧ ∀ l ∈ lives, Seen.got { offset := 5 } ∉ l.final.log := by
  refine ⟨[secondLife 100, firstLife 100], (twoLives 100 (.inr rfl)).1, fun l hl => ⟨(twoLives 100 (.inr rfl)).2 l hl, ?_⟩,
    ⟨firstLife 100, by simp, List.mem_of_getElem? (i := 2) rfl⟩, ⟨secondLife 100, by simp, List.mem_of_getElem? (i := 1) rfl⟩, by decide, fun l hl h => ?_⟩
  · simp only [List.mem_cons, List.not_mem_nil, or_false] at hl
    rcases hl with rfl | rfl <;> rfl
  · simp only [List.mem_cons, List.not_mem_nil, or_false] at hl
    rcases hl with rfl | rfl
    · change Seen.got { offset := 5 } ∈ [Seen.fetch 6 100, .put { offset := 7 }] at h
      simp at h
    · change Seen.got { offset := 5 } ∈ [Seen.fetch 5 100, .put { offset := 5 }, .commit [] (-1) 6 true] at h
      simp at h

end Healer
