import Verif.Model.Again
import Verif.Props.Exact

/-!
# C185: every call of `Consume` gets the messages from its position on
-/

namespace Healer

theorem again_once (env : ConsumerEnv) (as : List ConsumerAct) (s s' : Loops) (t : Taker) (ht : s.takers = [t])
    (h : s.run env (as.map (.of 0)) = some s') :
    ∃ c t', (s.view t).run env as = some c ∧ s'.takers = [t'] ∧ t'.log = c.log := by
  induction as generalizing s t with
  | nil =>
    simp only [List.map_nil, Loops.run, Option.some.injEq] at h
    subst h
    exact ⟨_, t, rfl, ht, rfl⟩
  | cons a as ih =>
    simp only [List.map_cons, Loops.run, Loops.step, ht, List.getElem?_cons_zero] at h
    obtain ⟨x, hx, hr⟩ := Option.bind_eq_some_iff.1 h
    obtain ⟨c, hc, rfl⟩ := Option.map_eq_some_iff.1 hx
    obtain ⟨c', t', h1, h2, h3⟩ := ih (s.after 0 c) { loop := c.loop, queue := c.queue, log := c.log } (by simp [Loops.after, ht]) hr
    refine ⟨c', t', ?_, h2, h3⟩
    rw [SC.run, hc]
    exact h1

/-- C185, for one call: let `L` be the messages of the partition, by ascending offset, and let every fetch give a beginning of those from the
offset asked for on.  If `Consume` is called once, with the position `o`, then what its channel gets is a beginning of the messages from `o` on, as
long as no error makes the consumer ask for another position. -/
theorem C185_once_partial (env : ConsumerEnv) (L : List Kafka.Stored) (hL : L.Pairwise fun a b => a.offset < b.offset)
    (hmax : ∀ m ∈ L, m.offset + 1 < 2 ^ 63) (as : List ConsumerAct) (base : SC) (o : Int64) (s' : Loops) (hs : base.stop = false)
    (hfed : Fed (fun o ms => FromLog (fromOffset L o.toInt) ms) env as { base with offset := o, loop := .top, queue := [], log := [] })
    (h : Loops.run env (.consume o :: as.map (.of 0)) { base } = some s') :
    ∃ t, s'.takers = [t] ∧ (sinceLookup t.log).map Message.seen <+: fromOffset L (lastReset o t.log).toInt := by
  cases base
  cases hs
  simp only [Loops.run, Loops.step, Option.bind_some, Bool.false_eq_true, if_false, List.nil_append] at h
  obtain ⟨c, t', h1, h2, h3⟩ := again_once env as _ s' {} rfl h
  have h4 := C37_exactly_once env L hL hmax as _ c rfl rfl hfed h1
  exact ⟨t', h2, by rw [h3]; exact h4⟩

/-- **C185 is violated by every second call with another position.** In whatever state a consumer is whose first loop is about to fetch: after a
second call of `Consume` with any position `q`, the first loop fetches at `q` too.  If the answer begins with a message `m`, that message is the
next in the first channel.  So whatever lies between the position `p` of the first and `q` never comes into the first channel, or comes a second time. -/
theorem C185_violated_every_other (env : ConsumerEnv) (s : Loops) (t : Taker) (ht : s.takers[0]? = some t) (hl : t.loop = .top) (hs : s.base.stop = false)
    (hroom : t.queue.length < env.capacity) (q : Int64) (m : Message) (x : FullMessage) (hx : x.error = none ∧ x.message = some m) (ms : List FullMessage) :
    ∃ s', s.run env [.consume q, .of 0 (.fetched (x :: ms)), .of 0 (.next (.ok 0))] = some s' ∧
      ∃ t', s'.takers[0]? = some t' ∧ t'.log = t.log ++ [.fetch q s.base.fetchMaxBytes, .put m] := by
  have hne : env.capacity ≠ 0 := by omega
  obtain ⟨as, hta⟩ : ∃ as, s.takers = t :: as := by
    cases h : s.takers with
    | nil => rw [h] at ht; cases ht
    | cons u us => rw [h] at ht; cases ht; exact ⟨us, rfl⟩
  simp [Loops.run, Loops.step, Loops.view, Loops.after, SC.step, nextMessage, hta, hl, hs, hx.1, hx.2, hne, hroom, putSeen]

/-- **C185 is violated even if both calls ask for the same position.** Whatever has happened so far: if two loops are about to fetch at the offset of a
message `m`, and every fetch is answered with the message at its offset and perhaps the next one, then the first channel may get the next one twice: the
slower loop sets the position of the consumer back. -/
theorem C185_violated_every_same (env : ConsumerEnv) (s : Loops) (t u : Taker) (us : List Taker) (ht : s.takers = t :: u :: us) (hl : t.loop = .top) (hl' : u.loop = .top)
    (hs : s.base.stop = false) (hroom : t.queue.length + 3 ≤ env.capacity) (hroom' : u.queue.length < env.capacity) (m n : Message) (x y : FullMessage)
    (hx : x.error = none ∧ x.message = some m) (hy : y.error = none ∧ y.message = some n) (hm : m.offset = s.base.offset) (hn : n.offset = m.offset + 1) :
    ∃ s', s.run env [.of 1 (.fetched [x]), .of 0 (.fetched [x, y]), .of 0 (.next (.ok 0)), .of 0 .advance, .of 0 (.next (.ok 0)), .of 0 .advance, .of 0 (.next (.ok 0)),
        .of 1 (.next (.ok 0)), .of 1 .advance, .of 0 (.fetched [y]), .of 0 (.next (.ok 0))] = some s' ∧
      ∃ t' u', s'.takers[0]? = some t' ∧ s'.takers[1]? = some u' ∧ u'.log = u.log ++ [.fetch m.offset s.base.fetchMaxBytes, .put m] ∧
        t'.log = t.log ++ [.fetch m.offset s.base.fetchMaxBytes, .put m, .put n, .fetch n.offset s.base.fetchMaxBytes, .put n] := by
  have hne : env.capacity ≠ 0 := by omega
  have r0 : t.queue.length < env.capacity := by omega
  have r1 : t.queue.length + 1 < env.capacity := by omega
  have r2 : t.queue.length + 2 < env.capacity := by omega
  simp [Loops.run, Loops.step, Loops.view, Loops.after, SC.step, nextMessage, ht, hl, hl', hs, hx.1, hx.2, hy.1, hy.2, hne, r0, r1, r2, hroom', putSeen, hm, hn]

/-- A loop that has ended, with nothing in its channel and nothing ever put into it or fetched for it. -/
def Taker.Dead (t : Taker) : Prop := t.loop = .done ∧ t.queue = [] ∧ ∀ x ∈ t.log, (∀ m, x ≠ .put m) ∧ (∀ m, x ≠ .got m) ∧ ∀ o n, x ≠ .fetch o n

theorem commitNext_dead (env : ConsumerEnv) (c : CommitAt) (ok : Bool) (s : SC) :
    (commitNext env c ok s).2.loop = s.loop ∧ (commitNext env c ok s).2.queue = s.queue ∧
      ∀ x ∈ (commitNext env c ok s).2.log, x ∈ s.log ∨ ∃ a b d e, x = .commit a b d e := by
  have key : ∀ l y a b d e, y ∈ l ++ [Seen.commit a b d e] → y ∈ l ∨ ∃ a b d e, y = .commit a b d e := by
    intro l y _ _ _ _ hy
    rcases List.mem_append.1 hy with hy | hy
    · exact .inl hy
    · exact .inr ⟨_, _, _, _, List.mem_singleton.1 hy⟩
  unfold commitNext
  cases c with
  | start => dsimp only; split <;> exact ⟨rfl, rfl, fun x hx => .inl hx⟩
  | differs => exact ⟨rfl, rfl, fun x hx => .inl hx⟩
  | read o =>
    dsimp only
    cases env.mode with
    | none => exact ⟨rfl, rfl, fun x hx => .inl hx⟩
    | own => exact ⟨rfl, rfl, fun x hx => key _ _ _ _ _ _ hx⟩
    | member => dsimp only; split <;> exact ⟨rfl, rfl, fun x hx => .inl hx⟩
  | checked o => exact ⟨rfl, rfl, fun x hx => key _ _ _ _ _ _ hx⟩
  | acknowledged o => exact ⟨rfl, rfl, fun x hx => .inl hx⟩

theorem dead_step (env : ConsumerEnv) (a : ConsumerAct) (s c : SC) (h : s.step env a = some c)
    (hd : Taker.Dead { loop := s.loop, queue := s.queue, log := s.log }) : Taker.Dead { loop := c.loop, queue := c.queue, log := c.log } := by
  obtain ⟨h1, h2, h3⟩ := hd
  dsimp only at h1 h2 h3
  cases a with
  | commit =>
    simp only [SC.step] at h
    split at h
    · cases h
    · cases h; exact ⟨h1, h2, h3⟩
  | commitStep i ok =>
    simp only [SC.step] at h
    split at h
    · rename_i x _
      cases h
      obtain ⟨k1, k2, k3⟩ := commitNext_dead env x ok s
      refine ⟨k1.trans h1, k2.trans h2, fun y hy => ?_⟩
      rcases k3 y hy with hy | ⟨_, _, _, _, rfl⟩
      · exact h3 y hy
      · exact ⟨by simp, by simp, by simp⟩
    · cases h
  | membership m g =>
    simp only [SC.step] at h
    cases h
    refine ⟨h1, h2, fun y hy => ?_⟩
    rcases List.mem_append.1 hy with hy | hy
    · exact h3 y hy
    · rw [List.mem_singleton.1 hy]; exact ⟨by simp, by simp, by simp⟩
  | cancel => simp only [SC.step] at h; cases h; exact ⟨h1, h2, h3⟩
  | stop => simp only [SC.step] at h; cases h; exact ⟨h1, h2, h3⟩
  | next answer => simp [SC.step, nextMessage, h1] at h
  | fetchFailed => simp [SC.step, h1] at h
  | fetched ms => simp [SC.step, h1] at h
  | noticed => simp [SC.step, h1] at h
  | advance => simp [SC.step, h1] at h
  | leader found => simp [SC.step, h1] at h
  | receive => simp [SC.step, h2] at h

theorem dead_run (env : ConsumerEnv) (as : List AgainAct) (s s' : Loops) (n : Nat) (h : s.run env as = some s') (t : Taker) (ht : s.takers[n]? = some t) (hd : t.Dead) :
    ∃ t', s'.takers[n]? = some t' ∧ t'.Dead := by
  induction as generalizing s t with
  | nil => cases h; exact ⟨t, ht, hd⟩
  | cons a as ih =>
    rw [Loops.run] at h
    obtain ⟨x, hx, hr⟩ := Option.bind_eq_some_iff.1 h
    have hn : n < s.takers.length := (List.getElem?_eq_some_iff.1 ht).1
    cases a with
    | consume o =>
      simp only [Loops.step, Option.some.injEq] at hx
      subst hx
      exact ih _ hr t (by simp only; rw [List.getElem?_append_left hn]; exact ht) hd
    | of i a =>
      simp only [Loops.step] at hx
      split at hx
      · cases hx
      · rename_i u hu
        obtain ⟨c, hc, rfl⟩ := Option.map_eq_some_iff.1 hx
        by_cases hi : i = n
        · subst hi
          rw [ht] at hu
          cases hu
          refine ih _ hr { loop := c.loop, queue := c.queue, log := c.log } (by simp [Loops.after, hn]) (dead_step env a _ c hc hd)
        · exact ih _ hr t (by simp only [Loops.after]; rw [List.getElem?_set_ne hi]; exact ht) hd

/-- **C185 is violated by every call after `Stop`.** Such a call returns a channel and no error, but whatever happens then, nothing is fetched for it and nothing
comes into its channel, which is not closed either. -/
theorem C185_violated_every_stopped (env : ConsumerEnv) (s s' : Loops) (hs : s.base.stop = true) (o : Int64) (as : List AgainAct)
    (h : s.run env (.consume o :: as) = some s') :
    ∃ t, s'.takers[s.takers.length]? = some t ∧ t.queue = [] ∧ ∀ x ∈ t.log, (∀ m, x ≠ .put m) ∧ (∀ m, x ≠ .got m) ∧ ∀ p n, x ≠ .fetch p n := by
  simp only [Loops.run, Loops.step, Option.bind_some] at h
  obtain ⟨t, ht, hd⟩ := dead_run env as _ s' s.takers.length h { loop := .done } (by simp [hs]) ⟨rfl, rfl, by simp⟩
  exact ⟨t, ht, hd.2⟩

/-- what the channels of a consumer got -/
def cameTo (s : Loops) : List (List Int64) := s.takers.map fun t => t.log.filterMap fun x => match x with
  | .put m => some m.offset
  | _ => none

/-- one call -/
example : (Loops.run { mode := .none } ([.consume 5, .of 0 (.fetched [at' 5, at' 7])] ++ take'.map (.of 0) ++ take'.map (.of 0)) { base := { offset := 0, fetchMaxBytes := 9 } }).map cameTo =
    some [[5, 7]] := by decide +kernel

/-- a second call, with another position: the messages from 6 to 19 do not come into the first channel -/
example : (Loops.run { mode := .none } ([.consume 5, .of 0 (.fetched [at' 5])] ++ take'.map (.of 0) ++ [.of 0 (.next (.ok 0)), .consume 20, .of 0 (.fetched [at' 20]), .of 0 (.next (.ok 0))])
    { base := { offset := 0, fetchMaxBytes := 9 } }).map cameTo = some [[5, 20], []] := by decide +kernel

/-- a call after `Stop`: nothing can be fetched -/
example : (Loops.run { mode := .none } [.consume 5, .of 0 .stop, .consume 5, .of 1 .commit] { base := { offset := 0, fetchMaxBytes := 9 } }).map cameTo = some [[], []] ∧
    (Loops.run { mode := .none } [.consume 5, .of 0 .stop, .consume 5, .of 1 (.fetched [at' 5])] { base := { offset := 0, fetchMaxBytes := 9 } }).map cameTo = none := by decide +kernel

/-- a second call with the same position: the message 6 comes twice into the first channel -/
example : (Loops.run { mode := .none } [.consume 5, .consume 5, .of 1 (.fetched [at' 5]), .of 0 (.fetched [at' 5, at' 6]), .of 0 (.next (.ok 0)), .of 0 .advance, .of 0 (.next (.ok 0)), .of 0 .advance,
    .of 0 (.next (.ok 0)), .of 1 (.next (.ok 0)), .of 1 .advance, .of 0 (.fetched [at' 6]), .of 0 (.next (.ok 0))] { base := { offset := 0, fetchMaxBytes := 9 } }).map cameTo =
    some [[5, 6, 6], [5]] := by decide +kernel

end Healer
