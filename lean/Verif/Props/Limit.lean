import Verif.Model.Limit
import Verif.Props.Timed
import Verif.Props.Config
import Verif.Props.Settings

/-!
# C186: the time limit of one request does not end another
-/

namespace Healer

theorem limitRead_own (timeout : Nat) (ht : 0 < timeout) (evs : List TEv) : ∀ need (k : Limit), ∃ r t rest D,
    timedRead timeout need evs = some (r, t, rest) ∧ limitRead timeout need k evs = some (r, ⟨k.now + t, D⟩, rest) ∧
      (need = 0 → D = k.deadline ∧ t = 0) ∧ (0 < need → ∃ x, D = some x ∧ x ≤ k.now + t + timeout) := by
  induction evs with
  | nil =>
    intro need k
    cases need with
    | zero => exact ⟨_, _, _, k.deadline, rfl, rfl, fun _ => ⟨rfl, rfl⟩, nofun⟩
    | succ n =>
      refine ⟨.err .timeout, timeout, [], some (k.now + timeout), ?_, ?_, nofun, fun _ => ⟨_, rfl, by omega⟩⟩
      · simp [timedRead, ht]
      · simp [limitRead, Limit.renew, ht]
  | cons x evs ih =>
    obtain ⟨d, ev⟩ := x
    intro need k
    cases need with
    | zero => exact ⟨_, _, _, k.deadline, rfl, rfl, fun _ => ⟨rfl, rfl⟩, nofun⟩
    | succ n =>
      by_cases hl : timeout ≤ d
      · refine ⟨.err .timeout, timeout, (d - timeout, ev) :: evs, some (k.now + timeout), ?_, ?_, nofun, fun _ => ⟨_, rfl, by omega⟩⟩
        · simp [timedRead, tooLate, ht, hl]
        · have : k.now + d - (k.now + timeout) = d - timeout := by omega
          simp [limitRead, Limit.renew, Limit.cuts, ht, hl, this]
      · have hc : (k.renew timeout).cuts d = none := by simp [Limit.renew, Limit.cuts, ht, hl]
        have hr : (k.renew timeout).deadline = some (k.now + timeout) := by simp [Limit.renew, ht]
        have hT : tooLate timeout d = false := by simp [tooLate, hl]
        cases ev with
        | fail e =>
          refine ⟨.err e, d, evs, some (k.now + timeout), ?_, ?_, nofun, fun _ => ⟨_, rfl, by omega⟩⟩
          · simp [timedRead, hT]
          · simp [limitRead, hc, hr]
        | data bs =>
          by_cases hlen : n + 1 < bs.length
          · refine ⟨.ok (bs.take (n + 1)), d, (0, .data (bs.drop (n + 1))) :: evs, some (k.now + timeout), ?_, ?_, nofun, fun _ => ⟨_, rfl, by omega⟩⟩
            · simp [timedRead, hT, hlen]
            · simp [limitRead, hc, hr, hlen]
          · obtain ⟨r, t, rest, D, h1, h2, h3, h4⟩ := ih (n + 1 - bs.length) ⟨k.now + d, some (k.now + timeout)⟩
            have hD : ∃ x, D = some x ∧ x ≤ k.now + (d + t) + timeout := by
              rcases Nat.eq_zero_or_pos (n + 1 - bs.length) with h0 | h0
              · exact ⟨_, (h3 h0).1, by omega⟩
              · obtain ⟨x, hx, hx'⟩ := h4 h0
                exact ⟨x, hx, by simp only at hx'; omega⟩
            refine ⟨r.prepend bs, d + t, rest, D, ?_, ?_, nofun, fun _ => hD⟩
            · rw [timedRead]
              simp only [hT, Bool.false_eq_true, if_false, if_neg hlen, h1]
              cases r <;> rfl
            · rw [limitRead]
              simp only [hc, hr, if_neg hlen, h2, Option.map_some]
              rw [Nat.add_assoc]

theorem limitRead_never (evs : List TEv) : ∀ need (n : Nat),
    limitRead 0 need ⟨n, none⟩ evs = (timedRead 0 need evs).map fun x => (x.1, ⟨n + x.2.1, none⟩, x.2.2) := by
  induction evs with
  | nil =>
    intro need n
    cases need <;> simp [limitRead, timedRead, Limit.renew]
  | cons x evs ih =>
    obtain ⟨d, ev⟩ := x
    intro need n
    cases need with
    | zero => simp [limitRead, timedRead]
    | succ m =>
      cases ev with
      | fail e => simp [limitRead, timedRead, Limit.renew, Limit.cuts, tooLate]
      | data bs =>
        by_cases hlen : m + 1 < bs.length
        · simp [limitRead, timedRead, Limit.renew, Limit.cuts, tooLate, hlen]
        · rw [limitRead, timedRead]
          simp only [Limit.renew, Limit.cuts, tooLate, Nat.lt_irrefl, if_false, if_neg hlen, ih]
          cases timedRead 0 (m + 1 - bs.length) evs with
          | none => simp
          | some y =>
            obtain ⟨r, t, rest⟩ := y
            cases r <;> simp [Out.prepend, Nat.add_assoc]

/-- What a request gives on a connection of its own. -/
def frameAlone (a : Posed) : Option (Out Bytes) := (timedFrame a.timeout a.answer).map (·.1)

theorem limitFrame_own (timeout : Nat) (ht : 0 < timeout) (k : Limit) (evs : List TEv) : ∃ r t D,
    timedFrame timeout evs = some (r, t) ∧ limitFrame timeout k evs = some (r, ⟨k.now + t, some D⟩) ∧ D ≤ k.now + t + timeout := by
  obtain ⟨r, t, rest, D, h1, h2, -, h4⟩ := limitRead_own timeout ht evs 4 k
  obtain ⟨x, rfl, hx⟩ := h4 (by omega)
  unfold timedFrame limitFrame
  rw [h1, h2]
  cases r with
  | err e => exact ⟨_, _, _, rfl, rfl, hx⟩
  | panic => exact ⟨_, _, _, rfl, rfl, hx⟩
  | ok head =>
    simp only
    cases hr : rdU32 head 0 with
    | err e => exact ⟨_, _, _, rfl, rfl, hx⟩
    | panic => exact ⟨_, _, _, rfl, rfl, hx⟩
    | ok p =>
      obtain ⟨n, off⟩ := p
      obtain ⟨r', t', rest', D', g1, g2, g3, g4⟩ := limitRead_own timeout ht rest n.toNat ⟨k.now + t, some x⟩
      have hD : ∃ y, D' = some y ∧ y ≤ k.now + (t + t') + timeout := by
        rcases Nat.eq_zero_or_pos n.toNat with h0 | h0
        · exact ⟨x, (g3 h0).1, by omega⟩
        · obtain ⟨y, hy, hy'⟩ := g4 h0
          exact ⟨y, hy, by simp only at hy'; omega⟩
      obtain ⟨y, rfl, hy⟩ := hD
      simp only [g1, g2, Nat.add_assoc]
      cases r' <;> exact ⟨_, _, _, rfl, rfl, by omega⟩

theorem limitFrame_never (n : Nat) (evs : List TEv) :
    limitFrame 0 ⟨n, none⟩ evs = (timedFrame 0 evs).map fun x => (x.1, ⟨n + x.2, none⟩) := by
  unfold timedFrame limitFrame
  rw [limitRead_never]
  cases timedRead 0 4 evs with
  | none => rfl
  | some y =>
    obtain ⟨r, t, rest⟩ := y
    cases r with
    | err e => rfl
    | panic => rfl
    | ok head =>
      simp only [Option.map_some]
      cases hr : rdU32 head 0 with
      | err e => rfl
      | panic => rfl
      | ok p =>
        simp only [limitRead_never]
        cases timedRead 0 p.1.toNat rest with
        | none => rfl
        | some z =>
          obtain ⟨r', t', rest'⟩ := z
          cases r' <;> simp [Nat.add_assoc]

/-- The outcomes of requests, each on a connection of its own, up to the first that fails. -/
def eachAlone : List Posed → List (Out Bytes)
  | [] => []
  | a :: as =>
    match frameAlone a with
    | some (.ok b) => .ok b :: eachAlone as
    | some r => [r]
    | none => []

/-- C186, the part that holds: if all requests on a connection have a time limit, or none has, then each gives what it would give on a
connection of its own, whatever pauses there are between them. -/
theorem C186_alike_partial (as : List Posed) (n : Nat) (h : (∀ a ∈ as, 0 < a.timeout) ∨ ∀ a ∈ as, a.timeout = 0) :
    poseAll as { now := n } = eachAlone as := by
  have main : ∀ as : List Posed, ∀ k : Limit, ((∀ a ∈ as, 0 < a.timeout) ∨ (k.deadline = none ∧ ∀ a ∈ as, a.timeout = 0)) → poseAll as k = eachAlone as := by
    intro as
    induction as with
    | nil => intro k _; rfl
    | cons a as ih =>
      intro k h
      rw [poseAll, eachAlone, frameAlone]
      rcases h with h | ⟨hk, h⟩
      · obtain ⟨r, t, D, h1, h2, -⟩ := limitFrame_own a.timeout (h a (by simp)) { k with now := k.now + a.pause } a.answer
        rw [h1, h2]
        cases r with
        | ok b => exact congrArg _ (ih _ (.inl fun x hx => h x (by simp [hx])))
        | err e => rfl
        | panic => rfl
      · have h0 := h a (by simp)
        obtain ⟨now, dl⟩ := k
        simp only at hk
        subst hk
        rw [h0, limitFrame_never]
        cases timedFrame 0 a.answer with
        | none => rfl
        | some y =>
          obtain ⟨r, t⟩ := y
          cases r with
          | ok b => exact congrArg _ (ih _ (.inr ⟨rfl, fun x hx => h x (by simp [hx])⟩))
          | err e => rfl
          | panic => rfl
  exact main as _ (h.imp id fun h => ⟨rfl, h⟩)

/-- C182 is violated for every answer if the timeout is 0: the answer may take any time, and is still taken. -/
theorem C182_violated_every_unlimited (body : Bytes) (h4 : 4 ≤ body.length) (hb : body.length < 2 ^ 32) (d : Nat) :
    timedFrame 0 [(d, .data (Kafka.frame body))] = some (.ok (Kafka.frame body), d) := by
  have hlen : (Kafka.int32 body.length).length = 4 := by simp
  have hr : rdU32 (Kafka.int32 body.length) 0 = .ok (UInt32.ofNat body.length, 4) := by
    have := creads_len32 body.length [] []
    simpa [hlen] using this
  have hn : (UInt32.ofNat body.length).toNat = body.length := by
    simp
    omega
  have hf : Kafka.frame body = Kafka.int32 body.length ++ body := rfl
  have e1 : timedRead 0 4 [(d, .data (Kafka.frame body))] = some (.ok (Kafka.int32 body.length), d, [(0, .data body)]) := by
    have ht : (Kafka.frame body).take 4 = Kafka.int32 body.length := by rw [hf, ← hlen, List.take_left]
    have hd : (Kafka.frame body).drop 4 = body := by rw [hf, ← hlen, List.drop_left]
    have hl : 4 < (Kafka.frame body).length := by rw [hf, List.length_append]; omega
    rw [timedRead]
    simp only [tooLate, Nat.lt_irrefl, false_and, decide_false, Bool.false_eq_true, if_false]
    rw [if_pos hl, ht, hd]
  have e2 : timedRead 0 body.length [(0, .data body)] = some (.ok body, 0, []) := by
    obtain ⟨m, hm⟩ : ∃ m, body.length = m + 1 := ⟨body.length - 1, by omega⟩
    rw [hm, timedRead]
    simp only [tooLate, Nat.lt_irrefl, false_and, decide_false, Bool.false_eq_true, if_false]
    rw [if_neg (by omega), hm, Nat.sub_self]
    simp [timedRead]
  unfold timedFrame
  rw [e1]
  simp only [hr, hn, e2]
  unfold logFrame
  rw [if_neg (by omega)]
  rfl

/-- **C186 is violated for every two requests of which only the first has a time limit.** Let a request with a limit be answered in time, and let the
answer to the next one, which has no limit, come when the limit of the first has passed.  Then the second fails with a timeout; on a connection of its own it
succeeds, whatever the answer is. -/
theorem C186_violated_every_next (first : Posed) (ht : 0 < first.timeout) (f : Bytes) (hf : frameAlone first = some (.ok f)) (n pause delay : Nat)
    (hlate : first.timeout ≤ pause + delay) (body : Bytes) (h4 : 4 ≤ body.length) (hb : body.length < 2 ^ 32) :
    poseAll [first, ⟨pause, 0, [(delay, .data (Kafka.frame body))]⟩] { now := n } = [.ok f, .err .timeout] ∧
      eachAlone [first, ⟨pause, 0, [(delay, .data (Kafka.frame body))]⟩] = [.ok f, .ok (Kafka.frame body)] := by
  have hsec := C182_violated_every_unlimited body h4 hb delay
  constructor
  · obtain ⟨r, t, D, h1, h2, h3⟩ := limitFrame_own first.timeout ht { now := n + first.pause } first.answer
    have hr : r = .ok f := by
      unfold frameAlone at hf
      rw [h1] at hf
      exact Option.some.inj hf
    subst hr
    simp only [poseAll, h2]
    have hcut : limitRead 0 4 ⟨n + first.pause + t + pause, some D⟩ [(delay, .data (Kafka.frame body))] =
        some (.err .timeout, ⟨max (n + first.pause + t + pause) D, some D⟩, [(n + first.pause + t + pause + delay - max (n + first.pause + t + pause) D, .data (Kafka.frame body))]) := by
      simp only at h3
      rw [limitRead]
      simp only [Limit.renew, Nat.lt_irrefl, if_false, Limit.cuts]
      rw [if_pos (by omega)]
    unfold limitFrame
    rw [hcut]
  · simp only [eachAlone, hf]
    unfold frameAlone
    rw [hsec]
    rfl

/-- **C186 is violated by every group consumer with `timeout.ms` 0.** Whatever configuration is accepted in which it is 0: joining the group has a time limit, the
session timeout and five seconds, and heartbeats (API 12) have none.  So a heartbeat that is answered when this time after the joining has passed - be it at once -
fails with a timeout, unless a commit has put the limit off. -/
theorem C186_violated_every_member (kind : ConsumerKind) (dflt : ConsumerConfig) (input : ConfigInput ConsumerConfig) (h h' : IntArrays) (c : ConsumerConfig)
    (ha : acceptConsumer kind dflt input h = .ok (h', .ok c)) (hs : 0 ≤ c.sessionTimeoutMS) (h0 : c.net.timeoutMS = 0) (n pause delay : Nat)
    (hlate : c.sessionTimeoutMS.toInt + 5000 ≤ pause + delay) (answer : List TEv) (f : Bytes) (body : Bytes) (h4 : 4 ≤ body.length) (hb : body.length < 2 ^ 32)
    (hj : frameAlone ⟨0, (c.net.timeoutFor h' 11).toInt.toNat, answer⟩ = some (.ok f)) :
    poseAll [⟨0, (c.net.timeoutFor h' 11).toInt.toNat, answer⟩, ⟨pause, (c.net.timeoutFor h' 12).toInt.toNat, [(delay, .data (Kafka.frame body))]⟩] { now := n } =
      [.ok f, .err .timeout] := by
  obtain ⟨h1, -, -, -, h5⟩ := C110_timeouts kind dflt input h h' c ha hs
  have h12 : (c.net.timeoutFor h' 12).toInt.toNat = 0 := by rw [h5 12 (by omega) (by omega) (by omega), h0]; rfl
  have hs' : 0 ≤ c.sessionTimeoutMS.toInt := by
    have := Int32.le_iff_toInt_le.1 hs
    simpa using this
  rw [h12]
  refine (C186_violated_every_next ⟨0, _, answer⟩ ?_ f hj n pause delay ?_ body h4 hb).1
  · show 0 < (c.net.timeoutFor h' 11).toInt.toNat
    omega
  · show (c.net.timeoutFor h' 11).toInt.toNat ≤ _
    omega

/-- a configuration with a timeout of 0 is accepted -/
example : (acceptedConfig (groupConsumerFrom (sampleSettings ("net", .table [("timeout.ms", .text "0")])))).map (fun c => (c.net.timeoutMS, c.sessionTimeoutMS)) = some (0, 30000) := by
  decide +kernel

/-- two requests with limits of 100 ms, the second 500 ms after the first -/
example : poseAll [⟨0, 100, [(99, .data [0, 0, 0, 4, 1, 2, 3, 4])]⟩, ⟨500, 100, [(99, .data [0, 0, 0, 4, 5, 6, 7, 8])]⟩] { now := 0 } =
    [.ok [0, 0, 0, 4, 1, 2, 3, 4], .ok [0, 0, 0, 4, 5, 6, 7, 8]] := by decide +kernel
/-- the second without a limit: fails, although it would be answered at once -/
example : poseAll [⟨0, 100, [(99, .data [0, 0, 0, 4, 1, 2, 3, 4])]⟩, ⟨500, 0, [(0, .data [0, 0, 0, 4, 5, 6, 7, 8])]⟩] { now := 0 } =
    [.ok [0, 0, 0, 4, 1, 2, 3, 4], .err .timeout] := by decide +kernel
example : frameAlone ⟨0, 100, [(99, .data [0, 0, 0, 4, 1, 2, 3, 4])]⟩ = some (.ok [0, 0, 0, 4, 1, 2, 3, 4]) := by decide +kernel

end Healer
