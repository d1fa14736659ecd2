import Verif.Props.Always7
import Verif.Props.Always8
import Verif.Props.AdminTools
import Verif.Props.GroupConsumer

/-!
# C123 for all consumers, C149 and C157 for all numbers
-/

namespace Healer

theorem findSetting_first (key : String) (v : Setting) (m : Settings) : findSetting key ((key, v) :: m) = some v := by
  unfold findSetting
  rw [List.find?_cons_of_pos (by simp)]

/-- A session timeout added in front of a map that is understood. -/
theorem decode_session (shown : Int → Int → String) (dflt d : ConsumerConfig) (m : Settings) (v : Setting) (hd : ConsumerConfig.decode shown m dflt = .ok d) (r : Int)
    (hr : decodeInt 32 dflt.sessionTimeoutMS.toInt v = .ok r) :
    ConsumerConfig.decode shown (("session.timeout.ms", v) :: m) dflt = .ok { d with sessionTimeoutMS := Int32.ofInt r } := by
  unfold ConsumerConfig.decode at hd ⊢
  simp only [except_bind_ok] at hd ⊢
  obtain ⟨x1, h1, x2, h2, x3, h3, x4, h4, x5, h5, x6, h6, x7, h7, x8, h8, x9, h9, x10, h10, x11, h11, x12, h12, x13, h13, x14, h14, x15, h15, h16⟩ := hd
  simp only [Except.ok.injEq] at h16
  subst h16
  have o (key : String) (hk : sameFold "session.timeout.ms" key = false) : findSetting key (("session.timeout.ms", v) :: m) = findSetting key m :=
    findSetting_other _ _ _ _ hk
  refine ⟨x1, ?_, x2, ?_, x3, ?_, x4, ?_, x5, ?_, x6, ?_, r, ?_, x8, ?_, x9, ?_, x10, ?_, x11, ?_, x12, ?_, x13, ?_, x14, ?_, x15, ?_, rfl⟩
  · unfold netField at h1 ⊢; rw [o _ (by decide)]; exact h1
  · unfold textField at h2 ⊢; rw [o _ (by decide)]; exact h2
  · unfold textField at h3 ⊢; rw [o _ (by decide)]; exact h3
  · unfold textField at h4 ⊢; rw [o _ (by decide)]; exact h4
  · unfold intField at h5 ⊢; rw [o _ (by decide)]; exact h5
  · unfold intField at h6 ⊢; rw [o _ (by decide)]; exact h6
  · unfold intField; rw [findSetting_first]; exact hr
  · unfold intField at h8 ⊢; rw [o _ (by decide)]; exact h8
  · unfold intField at h9 ⊢; rw [o _ (by decide)]; exact h9
  · unfold intField at h10 ⊢; rw [o _ (by decide)]; exact h10
  · unfold boolField at h11 ⊢; rw [o _ (by decide)]; exact h11
  · unfold boolField at h12 ⊢; rw [o _ (by decide)]; exact h12
  · unfold intField at h13 ⊢; rw [o _ (by decide)]; exact h13
  · unfold intField at h14 ⊢; rw [o _ (by decide)]; exact h14
  · unfold intField at h15 ⊢; rw [o _ (by decide)]; exact h15

/-- Whether a map is accepted does not depend on the session timeout. -/
theorem accept_session (shown : Int → Int → String) (kind : ConsumerKind) (dflt c : ConsumerConfig) (m : Settings) (h h' : IntArrays)
    (ha : acceptConsumer kind dflt (.map (ConsumerConfig.decode shown m)) h = .ok (h', .ok c)) (v : Setting) (r : Int)
    (hr : decodeInt 32 dflt.sessionTimeoutMS.toInt v = .ok r) :
    ∃ c' h'', acceptConsumer kind dflt (.map (ConsumerConfig.decode shown (("session.timeout.ms", v) :: m))) h = .ok (h'', .ok c') ∧ c'.sessionTimeoutMS = Int32.ofInt r := by
  obtain ⟨d, hd, -⟩ := accepted_map ha
  have hd' := decode_session shown dflt d m v hd r hr
  unfold acceptConsumer createConsumerConfig at ha ⊢
  simp only [hd, hd'] at ha ⊢
  generalize dflt.net.forEachAPI = fe at ha ⊢
  have hv (x : NetConfig) : ({ d with net := x, sessionTimeoutMS := Int32.ofInt r } : ConsumerConfig).checkValid = ({ d with net := x } : ConsumerConfig).checkValid := rfl
  have key : ∃ (x : NetConfig) (hx hx' : IntArrays), ({ d with net := { d.net with forEachAPI := fe } } : ConsumerConfig).reset h = .ok (hx, { d with net := x }) ∧
      ({ d with net := { d.net with forEachAPI := fe }, sessionTimeoutMS := Int32.ofInt r } : ConsumerConfig).reset h = .ok (hx', { d with net := x, sessionTimeoutMS := Int32.ofInt r }) := by
    unfold ConsumerConfig.reset at ha ⊢
    cases fe with
    | none => exact ⟨_, _, _, rfl, rfl⟩
    | some i =>
      simp only at ha ⊢
      by_cases h0 : (h.getD i []).length = 0
      · rw [if_pos h0, if_pos h0]
        exact ⟨_, _, _, rfl, rfl⟩
      · rw [if_neg h0, if_neg h0]
        by_cases h1 : (h.getD i []).length ≤ 11
        · rw [if_neg h0, if_pos h1] at ha; cases ha
        · rw [if_neg h1, if_neg h1]
          exact ⟨_, _, _, rfl, rfl⟩
  obtain ⟨x, hx, hx', e1, e2⟩ := key
  rw [e1] at ha
  rw [e2]
  simp only [Out.map] at ha ⊢
  refine ⟨{ d with net := x, sessionTimeoutMS := Int32.ofInt r }, hx', ?_, rfl⟩
  rw [hv x]
  cases kind with
  | group =>
    cases hc : ({ d with net := x } : ConsumerConfig).checkValid with
    | none => rfl
    | some e => rw [hc] at ha; cases ha
  | simple => rfl
  | consumer => rfl

/-- **C157 is violated for every number that does not fit.** Whatever map is accepted: with any whole number as session timeout as well, it is accepted; if the number does not fit
into 32 bits, another one is used, with the same remainder. (As a text such a number is refused: `C157_consumer_partial`.) -/
theorem C157_violated_every_cut (shown : Int → Int → String) (kind : ConsumerKind) (dflt c : ConsumerConfig) (m : Settings) (h h' : IntArrays)
    (ha : acceptConsumer kind dflt (.map (ConsumerConfig.decode shown m)) h = .ok (h', .ok c)) (n : Int64) (hn : ¬ InBits 32 n.toInt) :
    ∃ c' h'', acceptConsumer kind dflt (.map (ConsumerConfig.decode shown (("session.timeout.ms", .int n) :: m))) h = .ok (h'', .ok c') ∧
      c'.sessionTimeoutMS.toInt ≠ n.toInt ∧ (c'.sessionTimeoutMS.toInt - n.toInt) % 2 ^ 32 = 0 := by
  obtain ⟨c', h'', h1, h2⟩ := accept_session shown kind dflt c m h h' ha (.int n) n.toInt rfl
  refine ⟨c', h'', h1, fun e => hn ?_, ?_⟩
  · have := c'.sessionTimeoutMS.toInt_lt
    have := c'.sessionTimeoutMS.le_toInt
    rw [e] at *
    exact ⟨by assumption, by assumption⟩
  · rw [h2, Int32.toInt_ofInt]
    have : (n.toInt.bmod (2 ^ 32)) % ((2 ^ 32 : Nat) : Int) = n.toInt % ((2 ^ 32 : Nat) : Int) := Int.bmod_emod
    rw [show Int32.size = 2 ^ 32 from rfl]
    omega

/-- **C157 is violated for every number with a fraction.** Whatever map is accepted: with any number `k` / 2^`e` of less than 2³¹ as session timeout as well, it is accepted, and the
fraction is cut off. -/
theorem C157_violated_every_fraction (shown : Int → Int → String) (kind : ConsumerKind) (dflt c : ConsumerConfig) (m : Settings) (h h' : IntArrays)
    (ha : acceptConsumer kind dflt (.map (ConsumerConfig.decode shown m)) h = .ok (h', .ok c)) (k : Nat) (e : Nat) (he : 0 < e) (hk : k < 2 ^ 31 * 2 ^ e) (hf : k % 2 ^ e ≠ 0) :
    ∃ c' h'', acceptConsumer kind dflt (.map (ConsumerConfig.decode shown (("session.timeout.ms", .float k (-e)) :: m))) h = .ok (h'', .ok c') ∧
      c'.sessionTimeoutMS.toInt = ((k / 2 ^ e : Nat) : Int) ∧ c'.sessionTimeoutMS.toInt * 2 ^ e ≠ k := by
  have hq : k / 2 ^ e < 2 ^ 31 := Nat.div_lt_of_lt_mul (by rw [Nat.mul_comm]; exact hk)
  have ht : truncFloat k (-e) = ((k / 2 ^ e : Nat) : Int) := by
    unfold truncFloat
    have hq' : (Int.tdiv (k : Int) (2 ^ (- -(e : Int)).toNat)) = ((k / 2 ^ e : Nat) : Int) := by
      rw [Int.neg_neg, Int.toNat_natCast, Int.tdiv_eq_ediv_of_nonneg (by omega)]
      simp
    generalize k / 2 ^ e = q at hq hq' ⊢
    simp only [hq']
    rw [if_neg (show ¬ (0 : Int) ≤ -e by omega), if_pos (by omega)]
  obtain ⟨c', h'', h1, h2⟩ := accept_session shown kind dflt c m h h' ha (.float k (-e)) _ (congrArg Except.ok ht)
  have h3 : c'.sessionTimeoutMS.toInt = ((k / 2 ^ e : Nat) : Int) := by
    rw [h2, Int32.toInt_ofInt, show Int32.size = 2 ^ 32 from rfl]
    generalize k / 2 ^ e = q at hq ⊢
    rw [Int.bmod_eq_of_le] <;> omega
  refine ⟨c', h'', h1, h3, ?_⟩
  rw [h3]
  intro hh
  have h4 : k / 2 ^ e * 2 ^ e = k := by exact_mod_cast hh
  have := Nat.div_add_mod k (2 ^ e)
  rw [Nat.mul_comm] at this
  omega

/-- A digit of base eight. -/
def OctalChar (c : Char) : Prop := 48 ≤ c.toNat ∧ c.toNat ≤ 55

theorem digitsIn_eight (l : List Char) (k : Nat) (h : ∀ c ∈ l, OctalChar c) : digitsIn 8 l k = some (Nat.ofDigitChars 8 l k) := by
  induction l generalizing k with
  | nil => simp [digitsIn]
  | cons c l ih =>
    have hc := h c (by simp)
    unfold OctalChar at hc
    unfold digitsIn
    rw [if_neg (by rintro rfl; revert hc; decide)]
    have : charDigit c = some (c.toNat - 48) := by unfold charDigit; rw [if_pos (by omega)]
    rw [this]
    simp only
    rw [if_pos (by omega), ih _ fun d hd => h d (by simp [hd]), Nat.ofDigitChars_cons, Nat.mul_comm]
    rfl

/-- **C157 is violated for every text of digits that begins with a zero.** Whatever map is accepted: with a zero and any digits below 8, not too many, as the text of the session timeout
as well, it is accepted, and the digits are taken as those of a number of base eight. -/
theorem C157_violated_every_octal (shown : Int → Int → String) (kind : ConsumerKind) (dflt c : ConsumerConfig) (m : Settings) (h h' : IntArrays)
    (ha : acceptConsumer kind dflt (.map (ConsumerConfig.decode shown m)) h = .ok (h', .ok c)) (ds : List Char) (hd : ∀ c ∈ ds, OctalChar c)
    (hs : Nat.ofDigitChars 8 ds 0 < 2 ^ 31) :
    ∃ c' h'', acceptConsumer kind dflt (.map (ConsumerConfig.decode shown (("session.timeout.ms", .text (String.ofList ('0' :: ds))) :: m))) h = .ok (h'', .ok c') ∧
      c'.sessionTimeoutMS.toInt = Nat.ofDigitChars 8 ds 0 := by
  have hp : parseIntText 32 (String.ofList ('0' :: ds)) = some ((Nat.ofDigitChars 8 ds 0 : Nat) : Int) := by
    have h1 : prefixed ('0' :: ds) = some (Nat.ofDigitChars 8 ds 0) := by
      rw [← digitsIn_eight ds 0 hd]
      match ds, hd with
      | [], _ => rfl
      | [p], _ => rfl
      | p :: d :: r, hd =>
        have hpc := hd p (by simp)
        have hno : p.toLower ≠ 'b' ∧ p.toLower ≠ 'o' ∧ p.toLower ≠ 'x' := DigitChar.no_base (by
          unfold OctalChar at hpc
          unfold DigitChar
          simp
          omega)
        unfold prefixed
        simp only
        rw [if_neg hno.1, if_neg hno.2.1, if_neg hno.2.2]
    have hu : ('0' :: ds).contains '_' = false := by
      simp only [List.contains_eq_mem, decide_eq_false_iff_not]
      intro hm
      rcases List.mem_cons.mp hm with hm | hm
      · revert hm; decide
      · have := hd _ hm
        revert this
        unfold OctalChar
        decide
    have h2 : parseUnsigned ('0' :: ds) = some (Nat.ofDigitChars 8 ds 0) := by
      unfold parseUnsigned
      rw [hu, h1]
      rfl
    have h3 : parseSigned ('0' :: ds) = some ((Nat.ofDigitChars 8 ds 0 : Nat) : Int) := by
      show (parseUnsigned ('0' :: ds)).map Int.ofNat = _
      rw [h2]
      rfl
    unfold parseIntText
    rw [String.toList_ofList, h3, Option.bind_some]
    rw [if_pos ⟨by show (-2 ^ 31 : Int) ≤ _; omega, by show _ < (2 ^ 31 : Int); omega⟩]
  obtain ⟨c', h'', h1, h2⟩ := accept_session shown kind dflt c m h h' ha (.text (String.ofList ('0' :: ds))) ((Nat.ofDigitChars 8 ds 0 : Nat) : Int) (by
    have hne : String.ofList ('0' :: ds) ≠ "" := by
      intro he
      have := congrArg String.toList he
      rw [String.toList_ofList] at this
      simp at this
    show (match parseIntText 32 (if String.ofList ('0' :: ds) = "" then "0" else String.ofList ('0' :: ds)) with
      | some v => Except.ok v
      | none => Except.error errDecode) = _
    rw [if_neg hne, hp])
  refine ⟨c', h'', h1, ?_⟩
  rw [h2, Int32.toInt_ofInt, show Int32.size = 2 ^ 32 from rfl, Int.bmod_eq_of_le] <;> omega

/-- "0600" is taken for 384. -/
example : (∀ c ∈ "600".toList, OctalChar c) ∧ Nat.ofDigitChars 8 "600".toList 0 = 384 ∧ ¬ InBits 32 (4294967296 : Int64).toInt ∧ 3 % 2 ^ 1 ≠ 0 ∧
    (acceptedConfig (groupConsumerFrom (sampleSettings ("session.timeout.ms", .float 3 (-1))))).map (·.sessionTimeoutMS) = some 1 := by
  refine ⟨?_, by decide +kernel, ?_, by decide, by decide +kernel⟩
  · unfold OctalChar; decide
  · unfold InBits; decide

/-! ## C149 -/

/-- **C149 is violated for every timeout of more than 32 bits** given to the handlers: the broker is asked to work for another time, with the same remainder. -/
theorem C149_violated_every_wrap (timeout : Int64) (ht : ¬ InBits 32 timeout.toInt) :
    ∃ t : Int32, t.toInt ≠ timeout.toInt ∧ (t.toInt - timeout.toInt) % 2 ^ 32 = 0 ∧
      (∀ data, (electLeadersHttp data timeout).req = (electLeadersCmd data t).req) ∧
      (∀ data, (alterReassignmentsHttp data timeout).req = (alterReassignmentsCmd data t).req) ∧
      (∀ data, (listReassignmentsHttp data (some timeout)).req = (listReassignmentsCmd data t).req) ∧
      ∀ topic count, createPartitionsHttp topic count timeout = createPartitionsCmd topic count none t.toUInt32 false := by
  have e : timeout.toInt32.toInt = timeout.toInt.bmod (2 ^ 32) := Int64.toInt_toInt32 timeout
  refine ⟨timeout.toInt32, ?_, ?_, fun d => rfl, fun d => rfl, fun d => rfl, fun a b => ?_⟩
  · intro he
    have := timeout.toInt32.toInt_lt
    have := timeout.toInt32.le_toInt
    rw [he] at *
    exact ht ⟨by assumption, by assumption⟩
  · have : (timeout.toInt.bmod (2 ^ 32)) % ((2 ^ 32 : Nat) : Int) = timeout.toInt % ((2 ^ 32 : Nat) : Int) := Int.bmod_emod
    rw [e]
    omega
  · have e2 : timeout.toUInt64.toUInt32 = timeout.toInt32.toUInt32 := by
      rw [← UInt32.toBitVec_inj]
      show timeout.toBitVec.setWidth 32 = timeout.toBitVec.signExtend 32
      rw [BitVec.signExtend_eq_setWidth_of_le _ (by decide)]
    unfold createPartitionsHttp
    rw [e2]

example : ¬ InBits 32 (4294967296 : Int64).toInt ∧ ¬ InBits 32 (2147483648 : Int64).toInt := by
  unfold InBits
  decide

/-! ## C123 -/

theorem run_append (calm : Bool) (as bs : List GroupAct) (s : GC) : GC.run calm (as ++ bs) s = (GC.run calm as s).bind (GC.run calm bs) := by
  induction as generalizing s with
  | nil => rfl
  | cons a as ih =>
    show (s.step calm a).bind (GC.run calm (as ++ bs)) = ((s.step calm a).bind (GC.run calm as)).bind (GC.run calm bs)
    cases s.step calm a with
    | none => rfl
    | some t => exact ih t

/-- `Close` stops the partition consumers one after the other. -/
theorem run_stopping (l : List Nat) (s : GC) (hc : s.crashed = false) (hs : s.close = .stopping l) (hn : l.length ≤ s.counter) :
    GC.run false (List.replicate l.length (.closeStep true)) s
      = some { s with stopped := s.stopped ++ l, counter := s.counter - l.length, close := .stopping [] } := by
  induction l generalizing s with
  | nil =>
    rw [List.append_nil, ← hs]
    rfl
  | cons i l ih =>
    rw [List.length_cons] at hn
    have h1 : s.step false (.closeStep true) = some { s.stopOne i with close := .stopping l } := by
      unfold GC.step GC.closeNext
      rw [hc, hs]
      rfl
    rw [List.length_cons, List.replicate_succ]
    show (s.step false (.closeStep true)).bind _ = _
    rw [h1, Option.bind_some, ih]
    · unfold GC.stopOne
      have : decide (s.counter = 0) = false := by simp; omega
      simp only [hc, this, Bool.or_false, List.append_assoc, List.singleton_append, Nat.sub_sub, Nat.add_comm 1]
    · unfold GC.stopOne
      have : decide (s.counter = 0) = false := by simp; omega
      simp only [hc, this, Bool.or_false]
    · rfl
    · show _ ≤ s.counter - 1
      omega

/-- `consumeWithoutHeartBeat` starts the partition consumers one after the other. -/
theorem run_starting (l : List Nat) (s : GC) (hc : s.crashed = false) (hs : s.work = .starting l) :
    GC.run false (List.replicate l.length (.work false)) s
      = some { s with started := s.started ++ l, counter := s.counter + l.length, work := .starting [] } := by
  induction l generalizing s with
  | nil =>
    rw [List.append_nil, ← hs]
    rfl
  | cons i l ih =>
    have h1 : s.step false (.work false) = some { s with counter := s.counter + 1, started := s.started ++ [i], work := .starting l } := by
      unfold GC.step GC.workStep
      rw [hc, hs]
      rfl
    rw [List.length_cons, List.replicate_succ]
    show (s.step false (.work false)).bind _ = _
    rw [h1, Option.bind_some, ih { s with counter := s.counter + 1, started := s.started ++ [i], work := .starting l } hc rfl]
    simp only [List.append_assoc, List.singleton_append, Nat.add_assoc, Nat.add_comm 1]

/-- **C123 is violated for every group consumer that runs.** Whatever has happened, and however many partition consumers it has started: if `Consume` is called again and then `Close`,
all of them can be started a second time after they were stopped. -/
theorem C123_violated_every_twice (s : GC) (hc : s.crashed = false) (hw : s.work = .idle) (hj : s.join = .none) (hcl : s.close = .none ∨ s.close = .done) (ht : s.token = false)
    (hn : s.counter = s.consumers.length) :
    ∃ as t, GC.run false as s = some t ∧ t.crashed = false ∧ t.started = s.started ++ s.consumers ∧ t.stopped = s.stopped ++ s.consumers := by
  refine ⟨[.consume, .close, .closeStep true, .closeStep true] ++ (List.replicate s.consumers.length (.closeStep true) ++
    ([.work false, .join true 0, .work false] ++ List.replicate s.consumers.length (.work false))), ?_⟩
  rw [run_append]
  have h1 : GC.run false [.consume, .close, .closeStep true, .closeStep true] s
      = some { s with closed := true, work := .entered, token := true, close := .stopping s.consumers } := by
    have a1 : s.step false .consume = some { s with closed := false, work := .entered } := by
      unfold GC.step
      rw [hc]
      simp only [Bool.false_eq_true, if_false]
      rw [if_pos ⟨hw, .inl hj, by simp⟩]
    have a2 : ({ s with closed := false, work := .entered } : GC).step false .close = some { s with closed := true, work := .entered, close := .sending } := by
      unfold GC.step
      simp only [hc, Bool.false_eq_true, if_false]
      rw [if_pos ⟨hcl, by simp⟩]
    have a3 : ({ s with closed := true, work := .entered, close := .sending } : GC).step false (.closeStep true)
        = some { s with closed := true, work := .entered, token := true, close := .locking } := by
      unfold GC.step GC.closeNext
      simp only [hc, ht, Bool.false_eq_true, if_false]
    have a4 : ({ s with closed := true, work := .entered, token := true, close := .locking } : GC).step false (.closeStep true)
        = some { s with closed := true, work := .entered, token := true, close := .stopping s.consumers } := by
      unfold GC.step GC.closeNext WorkAt.holds
      simp only [hc, Bool.false_eq_true, if_false]
    show (s.step false .consume).bind _ = _
    rw [a1, Option.bind_some]
    show (GC.step false .close _).bind _ = _
    rw [a2, Option.bind_some]
    show (GC.step false (.closeStep true) _).bind _ = _
    rw [a3, Option.bind_some]
    show (GC.step false (.closeStep true) _).bind _ = _
    rw [a4, Option.bind_some]
    rfl
  rw [h1, Option.bind_some, run_append, run_stopping s.consumers
    { s with closed := true, work := .entered, token := true, close := .stopping s.consumers } hc rfl (by show _ ≤ s.counter; omega), Option.bind_some, run_append]
  have h2 : GC.run false [.work false, .join true 0, .work false]
      { s with closed := true, work := .entered, token := true, stopped := s.stopped ++ s.consumers, counter := s.counter - s.consumers.length, close := .stopping [] }
      = some { s with closed := true, work := .starting s.consumers, join := .none, joined := true, token := true, stopped := s.stopped ++ s.consumers, counter := 0, close := .stopping [] } := by
    rw [hn, Nat.sub_self]
    simp only [GC.run, GC.step, GC.workStep, GC.joinStep, hc, Bool.false_eq_true, if_false, if_true, Option.bind_some, and_false]
  rw [h2, Option.bind_some, run_starting s.consumers { s with closed := true, work := .starting s.consumers, join := .none, joined := true, token := true, stopped := s.stopped ++ s.consumers, counter := 0, close := .stopping [] } hc rfl]
  exact ⟨_, rfl, hc, rfl, rfl⟩

/-- Five partition consumers have been started and run. -/
example : ∃ s, GC.run false ([.consume, .work false, .join true 0, .join true 0, .join true 5] ++ List.replicate 7 (.work false)) {} = some s ∧
    s.crashed = false ∧ s.work = .idle ∧ s.join = .none ∧ s.close = .none ∧ s.token = false ∧ s.counter = s.consumers.length ∧ s.started = [0, 1, 2, 3, 4] ∧
    s.consumers = s.started := ⟨_, rfl, by decide +kernel⟩

end Healer
