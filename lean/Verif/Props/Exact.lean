import Verif.Props.Consumer3

/-!
# C37: exactly the stored messages, in order, without gaps
-/

namespace Healer

/-- What the decoder hands on is, up to the first error, the beginning of `want`. -/
def FromLog : List Kafka.Stored → List FullMessage → Prop
  | _, [] => True
  | want, x :: ms =>
    x.error = none → ∀ m, x.message = some m → ∃ rest, want = m.seen :: rest ∧ FromLog rest ms

/-- The messages of a partition from an offset on. -/
def fromOffset (L : List Kafka.Stored) (o : Int) : List Kafka.Stored := L.filter fun m => decide (m.offset ≥ o)

/-- The position since the last look-up: the one it gave (-1 if it failed), or the one at the start. -/
def lastReset (start : Int64) (log : List Seen) : Int64 :=
  log.foldl (fun p e => match e with
    | .lookup _ (.ok o) => o
    | .lookup _ (.error _) => -1
    | _ => p) start

theorem lastReset_snoc (start : Int64) (log : List Seen) (e : Seen) : lastReset start (log ++ [e]) =
    (match e with
      | .lookup _ (.ok o) => o
      | .lookup _ (.error _) => -1
      | _ => lastReset start log) := by
  simp [lastReset, List.foldl_append]

theorem lastReset_put (env : ConsumerEnv) (start : Int64) (log : List Seen) (m : Message) :
    lastReset start (log ++ putSeen env m) = lastReset start log := by
  unfold putSeen
  split
  · rw [show log ++ [Seen.put m, Seen.got m] = (log ++ [.put m]) ++ [.got m] by simp, lastReset_snoc, lastReset_snoc]
  · rw [lastReset_snoc]

/-- after the first message wanted come those after its offset -/
theorem fromOffset_next (L : List Kafka.Stored) (hL : L.Pairwise fun a b => a.offset < b.offset) (o : Int) (x : Kafka.Stored)
    (rest : List Kafka.Stored) (h : fromOffset L o = x :: rest) : fromOffset L (x.offset + 1) = rest := by
  induction L with
  | nil => cases h
  | cons y L ih =>
    rw [List.pairwise_cons] at hL
    unfold fromOffset at h ⊢
    rw [List.filter_cons] at h
    split at h
    · rw [List.cons.injEq] at h
      obtain ⟨rfl, h⟩ := h
      rename_i hy
      rw [List.filter_cons_of_neg (by simp; omega), ← h]
      apply List.filter_congr
      intro z hz
      have := hL.1 z hz
      simp only [ge_iff_le, decide_eq_true_eq] at hy
      simp only [ge_iff_le, decide_eq_decide]
      omega
    · have hx : x ∈ fromOffset L o := by unfold fromOffset; rw [h]; simp
      have := hL.1 x (List.mem_of_mem_filter hx)
      rw [List.filter_cons_of_neg (by simp; omega)]
      exact ih hL.2 h

theorem mem_of_fromOffset {L : List Kafka.Stored} {o : Int} {x : Kafka.Stored} {rest : List Kafka.Stored} (h : fromOffset L o = x :: rest) :
    x ∈ L := List.mem_of_mem_filter (show x ∈ fromOffset L o by rw [h]; simp)

/-- what is true along a run whose fetches give the messages of `L` -/
structure ExactInv (L : List Kafka.Stored) (start : Int64) (s : SC) : Prop where
  done : (sinceLookup s.log).map Message.seen ++ fromOffset L s.here.toInt = fromOffset L (lastReset start s.log).toInt
  inner : ∀ ms, s.loop = .inner ms → FromLog (fromOffset L s.offset.toInt) ms
  sent : ∀ m ms, s.loop = .sent m ms → FromLog (fromOffset L (m.offset + 1).toInt) ms

theorem ExactInv.step {L : List Kafka.Stored} (hL : L.Pairwise fun a b => a.offset < b.offset) (hmax : ∀ m ∈ L, m.offset + 1 < 2 ^ 63)
    {start : Int64} {env : ConsumerEnv} {t t' : SC} (hc : Change env (fun o ms => FromLog (fromOffset L o.toInt) ms) t t')
    (h : ExactInv L start t) : ExactInv L start t' := by
  obtain ⟨h1, h2, h3⟩ := h
  cases hc with
  | quiet _ ho hc hoc hlog hm hat hin =>
    refine ⟨?_, fun ms hms => by rw [ho]; exact h2 ms (hin ms hms), fun m ms hms => ?_⟩
    · rw [hlog]
      rcases hat with ⟨ha, hb⟩ | ha
      · rw [here_of_not_sent hb, ho, ← here_of_not_sent ha]; exact h1
      · rw [here_of_eq ha ho]; exact h1
    · rcases hat with ⟨ha, hb⟩ | ha
      · exact absurd hms (hb _ _)
      · exact h3 m ms (ha ▸ hms)
  | fetch _ hs htop hat hms =>
    have hh := here_of_not_sent (s := t) (by simp [htop])
    rw [hh] at h1
    refine ⟨?_, fun ms h => ?_, fun m ms h => absurd h (hat _ _)⟩
    · rw [here_of_not_sent hat, hs]
      simp only
      rw [sinceLookup_snoc, lastReset_snoc]
      exact h1
    · have := hms ms h
      rw [hs]
      exact this
  | put m x ms q hin hx he =>
    obtain ⟨rest, hr, hr'⟩ := h2 _ hin he m hx
    have hnext := fromOffset_next L hL _ _ _ hr
    have hlt := hmax _ (mem_of_fromOffset hr)
    have ho : (m.offset + 1).toInt = m.seen.offset + 1 := toInt_succ hlt
    rw [here_of_not_sent (by simp [hin])] at h1
    refine ⟨?_, fun ms h => (nomatch h), fun m' ms' h' => ?_⟩
    · simp only
      rw [sinceLookup_put, lastReset_put, ← h1, hr]
      change _ ++ fromOffset L (m.offset + 1).toInt = _
      rw [ho, hnext]
      simp
    · cases h'
      rw [ho, hnext]
      exact hr'
  | advance m ms hs =>
    rw [SC.here, hs] at h1
    refine ⟨h1, fun ms' h' => ?_, fun m ms h => nomatch h⟩
    cases h'
    exact h3 m ms hs
  | lookup _ a b hin ho htop hlog =>
    refine ⟨?_, by simp [htop], by simp [htop]⟩
    rw [here_of_not_sent (by simp [htop]), ho, hlog, sinceLookup_snoc, lastReset_snoc]
    cases a <;> rfl
  | got m q => exact ⟨by simp only; rw [sinceLookup_snoc, lastReset_snoc]; exact h1, h2, h3⟩
  | spawn hsp => exact ⟨h1, h2, h3⟩
  | commit _ i c ok hcm ho hl hm hcs hoc hlog =>
    obtain ⟨-, -, -, -, f3⟩ := commitNext_facts env c ok t
    refine ⟨?_, fun ms h' => by rw [ho]; exact h2 ms (hl ▸ h'), fun m ms h' => h3 m ms (hl ▸ h')⟩
    rw [here_of_eq hl ho, hlog]
    rcases f3 with f3 | ⟨m, g, o, f3⟩
    · rw [f3]; exact h1
    · rw [f3, sinceLookup_snoc, lastReset_snoc]; exact h1
  | member m g => exact ⟨by simp only; rw [sinceLookup_snoc, lastReset_snoc]; exact h1, h2, h3⟩

/-- C37: let `L` be the messages of the partition, by ascending offset, and let every fetch at `o` give a beginning of those from `o` on
(then perhaps an error).  Then what the consumer handed over since it started, or since it last asked where to go on, is a beginning of the
messages from that position on: each once, in order, none left out, none invented.  This holds whatever errors, retries, commits and
changes of the leader happen in between. -/
theorem C37_exactly_once (env : ConsumerEnv) (L : List Kafka.Stored) (hL : L.Pairwise fun a b => a.offset < b.offset)
    (hmax : ∀ m ∈ L, m.offset + 1 < 2 ^ 63) (as : List ConsumerAct) (s s' : SC) (hlog : s.log = []) (hl : s.loop = .top)
    (hfed : Fed (fun o ms => FromLog (fromOffset L o.toInt) ms) env as s) (h : s.run env as = some s') :
    (sinceLookup s'.log).map Message.seen <+: fromOffset L (lastReset s.offset s'.log).toInt := by
  have hi := run_induction (P := ExactInv L s.offset) (fun _ _ hc hp => hp.step hL hmax hc) as s s' hfed h
    ⟨by rw [here_of_not_sent (by simp [hl])]; simp [hlog, sinceLookup, lastReset], by simp [hl], by simp [hl]⟩
  exact ⟨_, hi.done⟩

theorem fromLog_of_seen : ∀ (ms : List FullMessage) (got want : List Kafka.Stored) (topic : Bytes) (pid : Int),
    ms.map FullMessage.seen = (got.map fun m => (⟨topic, pid, m⟩ : Kafka.Delivered)).map some → got <+: want → FromLog want ms
  | [], _, _, _, _, _, _ => trivial
  | x :: ms, [], _, _, _, h, _ => by simp at h
  | x :: ms, g :: got, want, topic, pid, h, hw => by
    simp only [List.map_cons, List.cons.injEq] at h
    obtain ⟨rest, hrest⟩ := hw
    subst hrest
    intro he m hm
    obtain ⟨hx, hr⟩ := h
    rw [FullMessage.seen, he, hm] at hx
    simp only [Option.isSome_none, Bool.false_eq_true, if_false, Option.map_some, Option.some.injEq, Kafka.Delivered.mk.injEq] at hx
    refine ⟨got ++ rest, by rw [hx.2.2]; rfl, ?_⟩
    exact fromLog_of_seen ms got _ topic pid hr ⟨rest, rfl⟩

/-- C37: what the decoder delivers is as `C37_exactly_once` needs it, if the response holds a stretch of the partition's log that begins at or
before the offset asked for: its messages from that offset on are a beginning of those in the log. -/
theorem C37_decoder_exact (env : FetchEnv) (hacc : ∀ n, env.accept n = true)
    (unpack : Nat → Bytes → Option Bytes) (xs : List Kafka.Packed) (hx : ∀ x ∈ xs, LogFits env unpack x) (L : List Kafka.Stored)
    (hpre : fromOffset (xs.flatMap fun x => Kafka.stored x.batch) env.startOffset.toInt <+: fromOffset L env.startOffset.toInt)
    (h : Kafka.FetchHeader) (topic : Bytes) (p : Kafka.FetchPartition) (hdata : p.data = xs.flatMap Kafka.packed)
    (hne : p.data ≠ []) (rest : Bytes) (s : SD) (hs : s.delivered = []) (w : OnWire env h topic p rest s) :
    ∃ s', streamDecode env s = .ok () s' ∧ FromLog (fromOffset L env.startOffset.toInt) s'.delivered := by
  obtain ⟨s', ms, h1, h2, -, -, h3⟩ := C15_fetch_delivery_partial env hacc unpack xs hx h topic p hdata hne rest s w
  refine ⟨s', h1, ?_⟩
  rw [h2, hs, List.nil_append]
  simp only at h3
  split at h3
  · rw [h3]
    intro he
    cases he
  · exact fromLog_of_seen ms _ _ topic p.partition h3 hpre

/-! ## The channel is first in, first out -/

/-- The messages put into the channel. -/
def putIn : List Seen → List Message
  | [] => []
  | .put m :: l => m :: putIn l
  | _ :: l => putIn l

/-- The messages the user took from the channel. -/
def takenOut : List Seen → List Message
  | [] => []
  | .got m :: l => m :: takenOut l
  | _ :: l => takenOut l

theorem putIn_append (l l' : List Seen) : putIn (l ++ l') = putIn l ++ putIn l' := by
  induction l with
  | nil => rfl
  | cons a l ih => cases a <;> simp [putIn, ih]

theorem takenOut_append (l l' : List Seen) : takenOut (l ++ l') = takenOut l ++ takenOut l' := by
  induction l with
  | nil => rfl
  | cons a l ih => cases a <;> simp [takenOut, ih]

/-- what was put is what was taken, followed by what waits -/
def Fifo (env : ConsumerEnv) (s : SC) : Prop :=
  putIn s.log = takenOut s.log ++ s.queue ∧ s.queue.length ≤ env.capacity

theorem fifo_onError (env : ConsumerEnv) (e : Err) (ans : Except Err Int64) (s : SC) (h : Fifo env s) : Fifo env (onError e ans s) := by
  unfold onError
  simp only
  split
  · exact ⟨by simp [putIn_append, takenOut_append, putIn, takenOut, h.1], h.2⟩
  · split <;> exact h

theorem commitNext_queue (env : ConsumerEnv) (c : CommitAt) (ok : Bool) (s : SC) : (commitNext env c ok s).2.queue = s.queue := by
  unfold commitNext
  cases c with
  | start => simp only; split <;> rfl
  | read o => simp only; split <;> (try rfl); split <;> rfl
  | _ => rfl

theorem fifo_step (env : ConsumerEnv) (a : ConsumerAct) (s s' : SC) (h : Fifo env s) (hs : s.step env a = some s') : Fifo env s' := by
  have plain : ∀ l : List Seen, putIn l = [] → takenOut l = [] → putIn (s.log ++ l) = takenOut (s.log ++ l) ++ s.queue := by
    intro l h1 h2
    rw [putIn_append, takenOut_append, h1, h2, List.append_nil, List.append_nil]
    exact h.1
  cases a with
  | next answer =>
    simp only [SC.step, nextMessage] at hs
    split at hs
    · cases hs; exact h
    · split at hs
      · cases hs; exact fifo_onError env _ _ s h
      · cases hs
      · split at hs
        · rename_i hcap
          cases hs
          refine ⟨?_, h.2⟩
          have hq : s.queue = [] := by
            have := h.2
            rw [hcap] at this
            exact List.length_eq_zero_iff.1 (Nat.le_zero.1 this)
          simp only [putSeen, hcap, if_true, putIn_append, takenOut_append, putIn, takenOut, h.1, hq, List.append_nil]
        · split at hs
          · rename_i hcap hlt
            cases hs
            refine ⟨?_, by simp only [List.length_append, List.length_singleton]; omega⟩
            simp only [putSeen, hcap, if_false, putIn_append, takenOut_append, putIn, takenOut, h.1, List.append_nil, List.append_assoc]
          · cases hs
    · cases hs
  | leader found =>
    simp only [SC.step] at hs
    split at hs
    · cases hs
      split <;> exact h
    · cases hs
  | receive =>
    simp only [SC.step] at hs
    split at hs
    · rename_i m q hq
      cases hs
      refine ⟨?_, ?_⟩
      · simp only [putIn_append, takenOut_append, putIn, takenOut, h.1, hq, List.append_nil, List.append_assoc, List.singleton_append]
      · have := h.2
        rw [hq, List.length_cons] at this
        simp only
        omega
    · cases hs
  | commitStep i ok =>
    simp only [SC.step] at hs
    split at hs
    · rename_i c hc
      cases hs
      obtain ⟨-, -, -, -, f3⟩ := commitNext_facts env c ok s
      have hq := commitNext_queue env c ok s
      rcases f3 with f3 | ⟨m, g, o', f3⟩
      · exact ⟨by simp only [f3, hq]; exact h.1, by simp only [hq]; exact h.2⟩
      · exact ⟨by simp only [f3, hq]; exact plain _ rfl rfl, by simp only [hq]; exact h.2⟩
    · cases hs
  | membership m g => cases hs; exact ⟨plain _ rfl rfl, h.2⟩
  | _ =>
    simp only [SC.step] at hs
    repeat' split at hs
    all_goals first | (cases hs; done) | (cases hs; first | exact h | exact ⟨plain _ rfl rfl, h.2⟩)

/-- C37: the user receives the messages in the order in which the consumer handed them over, each once; and no more of them wait than the
channel has room for. -/
theorem C37_received_in_order (env : ConsumerEnv) (as : List ConsumerAct) (s s' : SC) (hlog : s.log = []) (hq : s.queue = [])
    (h : s.run env as = some s') :
    takenOut s'.log <+: putIn s'.log ∧ (putIn s'.log).length ≤ (takenOut s'.log).length + env.capacity := by
  have key : ∀ (as : List ConsumerAct) (s s' : SC), Fifo env s → s.run env as = some s' → Fifo env s' := by
    intro as
    induction as with
    | nil => intro s s' hi h; cases h; exact hi
    | cons a as ih =>
      intro s s' hi h
      simp only [SC.run] at h
      rcases ha : s.step env a with _ | s1
      · rw [ha] at h; cases h
      · rw [ha] at h
        exact ih s1 s' (fifo_step env a s s1 hi ha) h
  obtain ⟨h1, h2⟩ := key as s s' ⟨by rw [hlog, hq]; rfl, by rw [hq]; exact Nat.zero_le _⟩ h
  refine ⟨⟨_, h1.symm⟩, ?_⟩
  rw [h1, List.length_append]
  omega

/-! ## A case -/

/-- offsets 5, 7, 8 -/
def threeStored : List Kafka.Stored := [5, 7, 8].map fun o => ({ offset := o } : Message).seen

/-- two fetches, of which the first ends in an error: 5, 7 and 8 are handed over -/
example : Fed (fun o ms => FromLog (fromOffset threeStored o.toInt) ms) { mode := .none }
    ([.fetched [at' 5, at' 7, bad .eof]] ++ take' ++ take' ++ [.next (.error .eof), .fetched [at' 8]] ++ take') { offset := 5, fetchMaxBytes := 100 } := by
  have first : FromLog (fromOffset threeStored 5) [at' 5, at' 7, bad .eof] := by
    intro _ m hm; cases hm
    refine ⟨_, rfl, ?_⟩
    intro _ m hm; cases hm
    refine ⟨_, rfl, ?_⟩
    intro he; cases he
  have second : FromLog (fromOffset threeStored 8) [at' 8] := by
    intro _ m hm; cases hm
    exact ⟨_, rfl, trivial⟩
  refine ⟨fun ms h => by cases h; exact first, fun s1 h1 => ?_⟩
  cases h1
  refine ⟨fun ms h => (nomatch h), fun s1 h1 => ?_⟩
  cases h1
  refine ⟨fun ms h => (nomatch h), fun s1 h1 => ?_⟩
  cases h1
  refine ⟨fun ms h => (nomatch h), fun s1 h1 => ?_⟩
  cases h1
  refine ⟨fun ms h => (nomatch h), fun s1 h1 => ?_⟩
  cases h1
  refine ⟨fun ms h => (nomatch h), fun s1 h1 => ?_⟩
  cases h1
  refine ⟨fun ms h => by cases h; exact second, fun s1 h1 => ?_⟩
  cases h1
  refine ⟨fun ms h => (nomatch h), fun s1 h1 => ?_⟩
  cases h1
  refine ⟨fun ms h => (nomatch h), fun s1 h1 => ?_⟩
  trivial

example : (SC.run { mode := .none } ([.fetched [at' 5, at' 7, bad .eof]] ++ take' ++ take' ++ [.next (.error .eof), .receive, .fetched [at' 8]] ++ take' ++
    [.receive]) { offset := 5, fetchMaxBytes := 100 }).map (fun s => ((sinceLookup s.log).map (·.offset), (takenOut s.log).map (·.offset))) =
    some ([5, 7, 8], [5, 7]) := by decide +kernel

end Healer
