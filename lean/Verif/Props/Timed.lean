import Verif.Model.Timed
import Verif.Props.Frame

/-!
# C182: a request ends within its timeout
-/

namespace Healer

/-- What the untimed model sees of timed events. -/
def untimed (timeout : Nat) (evs : List TEv) : List Ev :=
  evs.map (fun x => if tooLate timeout x.1 then .fail .timeout else x.2) ++ [.fail .timeout]

/-- Every piece of data holds something. -/
def Solid (evs : List TEv) : Prop := ∀ x ∈ evs, x.2 ≠ .data []

theorem timedRead_spec (timeout : Nat) (ht : 0 < timeout) (evs : List TEv) :
    ∀ need, ∃ r t rest, timedRead timeout need evs = some (r, t, rest) ∧ (connRead need (untimed timeout evs)).1 = r ∧
      (∀ b, r = .ok b → b.length = need ∧ (connRead need (untimed timeout evs)).2 = untimed timeout rest) ∧
      (Solid evs → t ≤ timeout * need ∧ Solid rest) := by
  induction evs with
  | nil =>
    intro need
    cases need with
    | zero => exact ⟨_, _, _, rfl, by simp [connRead], by intro b hb; cases hb; simp [connRead], fun _ => ⟨Nat.zero_le _, by intro x hx; cases hx⟩⟩
    | succ n =>
      refine ⟨.err .timeout, timeout, [], ?_, ?_, (by intro b hb; cases hb), fun _ => ⟨?_, by intro x hx; cases hx⟩⟩
      · simp [timedRead, ht]
      · simp [untimed, connRead]
      · exact Nat.le_mul_of_pos_right _ (by omega)
  | cons x evs ih =>
    obtain ⟨d, ev⟩ := x
    intro need
    cases need with
    | zero => exact ⟨_, _, _, rfl, by simp [connRead], by intro b hb; cases hb; simp [connRead], fun h => ⟨Nat.zero_le _, h⟩⟩
    | succ n =>
      have hone : timeout ≤ timeout * (n + 1) := Nat.le_mul_of_pos_right _ (by omega)
      by_cases hl : tooLate timeout d = true
      · refine ⟨.err .timeout, timeout, (d - timeout, ev) :: evs, ?_, ?_, (by intro b hb; cases hb), fun h => ⟨hone, ?_⟩⟩
        · simp [timedRead, hl]
        · simp [untimed, hl, connRead]
        · intro y hy
          rcases List.mem_cons.1 hy with rfl | hy
          · exact h (d, ev) (by simp)
          · exact h y (by simp [hy])
      · have hd : d < timeout := by
          unfold tooLate at hl
          simp only [decide_eq_true_eq] at hl
          omega
        have hun : untimed timeout ((d, ev) :: evs) = ev :: untimed timeout evs := by simp [untimed, hl]
        cases ev with
        | fail e =>
          refine ⟨.err e, d, evs, ?_, ?_, (by intro b hb; cases hb), fun h => ⟨by omega, fun y hy => h y (by simp [hy])⟩⟩
          · simp [timedRead, hl]
          · rw [hun]; simp [connRead]
        | data bs =>
          rw [hun]
          by_cases hlen : n + 1 < bs.length
          · refine ⟨.ok (bs.take (n + 1)), d, (0, .data (bs.drop (n + 1))) :: evs, ?_, ?_, ?_, fun h => ⟨by omega, ?_⟩⟩
            · simp [timedRead, hl, hlen]
            · simp [connRead, hlen]
            · intro b hb
              cases hb
              refine ⟨by rw [List.length_take]; omega, ?_⟩
              rw [connRead, if_pos hlen]
              simp [untimed, tooLate, ht]
              omega
            · intro y hy
              rcases List.mem_cons.1 hy with rfl | hy
              · intro hh
                have := congrArg (fun e => match e with | Ev.data b => b.length | _ => 1) hh
                simp at this
                omega
              · exact h y (by simp [hy])
          · obtain ⟨r, t, rest, h1, h2, h3, h4⟩ := ih (n + 1 - bs.length)
            have hbound : Solid ((d, .data bs) :: evs) → d + t ≤ timeout * (n + 1) ∧ Solid rest := by
              intro h
              obtain ⟨h5, h6⟩ := h4 (fun y hy => h y (by simp [hy]))
              have hpos : 0 < bs.length := List.length_pos_iff.2 (fun hh => h (d, .data bs) (by simp) (by rw [hh]))
              refine ⟨?_, h6⟩
              have : timeout * (n + 1 - bs.length) ≤ timeout * n := Nat.mul_le_mul_left _ (by omega)
              rw [Nat.mul_succ]
              omega
            have hc : connRead (n + 1) (.data bs :: untimed timeout evs) =
                match connRead (n + 1 - bs.length) (untimed timeout evs) with
                | (.ok r, evs') => (.ok (bs ++ r), evs')
                | (.err e, evs') => (.err e, evs')
                | (.panic, evs') => (.panic, evs') := by rw [connRead, if_neg hlen]; rfl
            rw [hc]
            generalize connRead (n + 1 - bs.length) (untimed timeout evs) = q at h2 h3
            obtain ⟨q1, q2⟩ := q
            simp only at h2 h3
            subst h2
            cases q1 with
            | ok b =>
              refine ⟨.ok (bs ++ b), d + t, rest, ?_, rfl, ?_, hbound⟩
              · simp [timedRead, hl, hlen, h1]
              · intro b' hb'
                cases hb'
                obtain ⟨h5, h6⟩ := h3 b rfl
                exact ⟨by rw [List.length_append]; omega, h6⟩
            | err e =>
              refine ⟨.err e, d + t, rest, ?_, rfl, (by intro b hb; cases hb), hbound⟩
              simp [timedRead, hl, hlen, h1]
            | panic =>
              refine ⟨.panic, d + t, rest, ?_, rfl, (by intro b hb; cases hb), hbound⟩
              simp [timedRead, hl, hlen, h1]

/-- C182, the parts that hold for every timeout but 0.  Reading an answer ends; what it ends with is what the model without
time gives; if nothing comes for the time of the timeout it ends after exactly this time with an error, and in general it
takes at most the timeout for every byte of an answer that is read completely. -/
theorem C182_ends_partial (timeout : Nat) (ht : 0 < timeout) (evs : List TEv) (hs : Solid evs) :
    ∃ r t, timedFrame timeout evs = some (r, t) ∧ (readFrame (untimed timeout evs)).1 = r ∧
      (∀ frame, r = .ok frame → t ≤ timeout * frame.length) ∧ t ≤ timeout * (4 + 2 ^ 32) ∧
      ((∀ d ev rest, evs = (d, ev) :: rest → timeout ≤ d) → r = .err .timeout ∧ t = timeout) := by
  obtain ⟨r, t, rest, h1, h2, h3, h4⟩ := timedRead_spec timeout ht evs 4
  obtain ⟨h5, h6⟩ := h4 hs
  have hbig : timeout * 4 ≤ timeout * (4 + 2 ^ 32) := Nat.mul_le_mul_left _ (by omega)
  have hsil : (∀ d ev rest, evs = (d, ev) :: rest → timeout ≤ d) →
      ∃ l, timedRead timeout 4 evs = some (.err .timeout, timeout, l) := by
    intro h
    cases evs with
    | nil => exact ⟨[], by simp [timedRead, ht]⟩
    | cons x evs =>
      obtain ⟨d, ev⟩ := x
      refine ⟨(d - timeout, ev) :: evs, ?_⟩
      simp [timedRead, tooLate, ht, h d ev evs rfl]
  unfold timedFrame readFrame
  generalize connRead 4 (untimed timeout evs) = q at h2 h3 ⊢
  obtain ⟨q1, q2⟩ := q
  simp only at h2 h3
  subst h2
  rw [h1]
  cases q1 with
  | err e =>
    refine ⟨_, _, rfl, rfl, (by intro f hf; cases hf), by omega, ?_⟩
    intro h
    obtain ⟨l, hl⟩ := hsil h
    rw [h1] at hl
    cases hl
    exact ⟨rfl, rfl⟩
  | panic =>
    refine ⟨_, _, rfl, rfl, (by intro f hf; cases hf), by omega, ?_⟩
    intro h
    obtain ⟨l, hl⟩ := hsil h
    rw [h1] at hl
    cases hl
  | ok head =>
    have hno : ¬ (∀ d ev rest, evs = (d, ev) :: rest → timeout ≤ d) := by
      intro h
      obtain ⟨l, hl⟩ := hsil h
      rw [h1] at hl
      cases hl
    obtain ⟨hlen, hq⟩ := h3 head rfl
    subst hq
    simp only
    cases hr : rdU32 head 0 with
    | err e => exact ⟨_, _, rfl, rfl, (by intro f hf; cases hf), by omega, fun h => absurd h hno⟩
    | panic => exact ⟨_, _, rfl, rfl, (by intro f hf; cases hf), by omega, fun h => absurd h hno⟩
    | ok p =>
      obtain ⟨n, off⟩ := p
      simp only
      obtain ⟨r2, t2, rest2, g1, g2, g3, g4⟩ := timedRead_spec timeout ht rest n.toNat
      obtain ⟨g5, g6⟩ := g4 h6
      have hn := n.toNat_lt
      have hb2 : timeout * n.toNat ≤ timeout * 2 ^ 32 := Nat.mul_le_mul_left _ (by omega)
      rw [Nat.mul_add] at hbig ⊢
      rw [g1]
      generalize connRead n.toNat (untimed timeout rest) = w at g2 g3 ⊢
      obtain ⟨w1, w2⟩ := w
      simp only at g2 g3
      subst g2
      cases w1 with
      | err e => exact ⟨_, _, rfl, rfl, (by intro f hf; cases hf), by omega, fun h => absurd h hno⟩
      | panic => exact ⟨_, _, rfl, rfl, (by intro f hf; cases hf), by omega, fun h => absurd h hno⟩
      | ok body =>
        refine ⟨_, _, rfl, rfl, ?_, by omega, fun h => absurd h hno⟩
        intro frame hf
        obtain ⟨g7, _⟩ := g3 body rfl
        unfold logFrame at hf
        split at hf
        · cases hf
        · cases hf
          rw [List.length_append, hlen, g7, Nat.mul_add]
          omega

/-- an arrival byte by byte, each after `d` milliseconds -/
def trickle (d : Nat) (b : Bytes) : List TEv := b.map fun x => (d, .data [x])

theorem timedRead_trickle (timeout d : Nat) (hd : tooLate timeout d = false) (b : Bytes) (more : List TEv) :
    timedRead timeout b.length (trickle d b ++ more) = some (.ok b, d * b.length, more) := by
  induction b with
  | nil => simp [timedRead, trickle]
  | cons x b ih =>
    show timedRead timeout (b.length + 1) ((d, .data [x]) :: (trickle d b ++ more)) = _
    rw [timedRead]
    simp only [hd, Bool.false_eq_true, if_false, List.length_singleton]
    rw [if_neg (by omega)]
    simp only [Nat.add_sub_cancel, ih, List.singleton_append, List.length_cons]
    rw [Nat.mul_succ, Nat.add_comm]

/-- C182 is violated for every answer and every timeout above one millisecond: if the broker sends the answer byte by byte,
each just before the limit, the request succeeds, after more than seven times the timeout less one - the longer the answer,
the longer - and with a timeout of 0 a silent broker is waited for without end. -/
theorem C182_violated_every_answer (body : Bytes) (h4 : 4 ≤ body.length) (hb : body.length < 2 ^ 32) :
    (∀ timeout, 2 ≤ timeout → ∃ evs t, timedFrame timeout evs = some (.ok (Kafka.frame body), t) ∧
      t = (timeout - 1) * (4 + body.length) ∧ timeout < t ∧ ∀ x ∈ evs, x.1 < timeout) ∧
    timedFrame 0 [] = none := by
  refine ⟨?_, rfl⟩
  intro timeout ht
  have hd : tooLate timeout (timeout - 1) = false := by
    unfold tooLate
    exact decide_eq_false (by omega)
  have hlen : (Kafka.int32 body.length).length = 4 := by simp
  have hr : rdU32 (Kafka.int32 body.length) 0 = .ok (UInt32.ofNat body.length, 4) := by
    have := creads_len32 body.length [] []
    simpa [hlen] using this
  have hn : (UInt32.ofNat body.length).toNat = body.length := by
    simp
    omega
  refine ⟨trickle (timeout - 1) (Kafka.int32 body.length) ++ trickle (timeout - 1) body, _, ?_, rfl, ?_, ?_⟩
  · have e1 := timedRead_trickle timeout (timeout - 1) hd (Kafka.int32 body.length) (trickle (timeout - 1) body)
    have e2 := timedRead_trickle timeout (timeout - 1) hd body []
    rw [hlen] at e1
    rw [List.append_nil] at e2
    unfold timedFrame
    rw [e1]
    simp only [hr, hn, e2]
    unfold logFrame
    rw [if_neg (by omega), Nat.mul_add]
    rfl
  · have : (timeout - 1) * 8 ≤ (timeout - 1) * (4 + body.length) := Nat.mul_le_mul_left _ (by omega)
    omega
  · intro x hx
    simp only [trickle, List.mem_append, List.mem_map] at hx
    rcases hx with ⟨y, _, rfl⟩ | ⟨y, _, rfl⟩
    · show timeout - 1 < timeout
      omega
    · show timeout - 1 < timeout
      omega

/-- An answer of four bytes with a timeout of 100 ms: in one piece after 99 ms; in two pieces; byte by byte, after 792 ms;
after 100 ms of silence an error. -/
example : timedFrame 100 [(99, .data [0, 0, 0, 4, 1, 2, 3, 4])] = some (.ok [0, 0, 0, 4, 1, 2, 3, 4], 99) := by decide +kernel
example : timedFrame 100 [(99, .data [0, 0, 0, 4, 1]), (50, .data [2, 3, 4])] = some (.ok [0, 0, 0, 4, 1, 2, 3, 4], 149) := by
  decide +kernel
example : timedFrame 100 (trickle 99 [0, 0, 0, 4, 1, 2, 3, 4]) = some (.ok [0, 0, 0, 4, 1, 2, 3, 4], 792) := by decide +kernel
example : timedFrame 100 [(99, .data [0, 0, 0, 4, 1]), (100, .data [2, 3, 4])] = some (.err .timeout, 199) := by decide +kernel
example : Solid (trickle 99 [0, 0, 0, 4, 1, 2, 3, 4]) := by
  intro x hx
  simp only [trickle, List.mem_map] at hx
  obtain ⟨y, _, rfl⟩ := hx
  simp

theorem timedWrite_stuck (taken : List (Nat × Nat)) (need : Nat) (h : (taken.map Prod.snd).sum < need) : timedWrite need taken = none := by
  induction taken generalizing need with
  | nil => cases need with
    | zero => simp at h
    | succ n => rfl
  | cons x taken ih =>
    obtain ⟨d, k⟩ := x
    cases need with
    | zero => simp at h
    | succ n =>
      simp only [List.map_cons, List.sum_cons] at h
      rw [timedWrite, ih _ (by omega)]
      rfl

theorem timedWrite_slow (taken : List (Nat × Nat)) (need w : Nat) (h : timedWrite need taken = some w) (hn : 0 < need) :
    ∀ x, taken.head? = some x → x.1 ≤ w := by
  intro x hx
  cases taken with
  | nil => cases hx
  | cons y taken =>
    cases hx
    obtain ⟨n, rfl⟩ := Nat.exists_eq_succ_of_ne_zero (Nat.pos_iff_ne_zero.1 hn)
    rw [timedWrite] at h
    obtain ⟨v, -, rfl⟩ := Option.map_eq_some_iff.1 h
    exact Nat.le_add_right _ _

/-- C182 as far as a request is taken at once: it then takes as long as its answer. -/
theorem C182_taken_partial (timeout : Nat) (payload : Bytes) (evs : List TEv) : timedRequest timeout payload [(0, payload.length)] evs = timedFrame timeout evs := by
  have : timedWrite payload.length [(0, payload.length)] = some 0 := by
    cases h : payload.length with
    | zero => rfl
    | succ n => simp [timedWrite]
  unfold timedRequest
  rw [this]
  cases timedFrame timeout evs <;> simp

/-- C182 is violated by every broker that does not take a request: whatever the timeout and the request, if the other side stops reading before it has all of it, the
request never ends; and if it is late to read, the request takes at least as long. -/
theorem C182_violated_every_write (timeout : Nat) (payload : Bytes) (taken : List (Nat × Nat)) (evs : List TEv) :
    ((taken.map Prod.snd).sum < payload.length → timedRequest timeout payload taken evs = none) ∧
    (payload ≠ [] → ∀ d k rest r t, taken = (d, k) :: rest → timedRequest timeout payload taken evs = some (r, t) → d ≤ t) := by
  refine ⟨fun h => ?_, fun hp d k rest r t ht h => ?_⟩
  · unfold timedRequest
    rw [timedWrite_stuck taken _ h]
    rfl
  · unfold timedRequest at h
    obtain ⟨w, hw, h⟩ := Option.bind_eq_some_iff.1 h
    obtain ⟨x, -, hx⟩ := Option.map_eq_some_iff.1 h
    have := timedWrite_slow taken _ w hw (List.length_pos_iff.2 hp) (d, k) (by rw [ht]; rfl)
    cases hx
    simp only at this
    omega

example : timedRequest 10 [1, 2, 3] [(0, 2)] [] = none ∧ timedRequest 10 [1, 2, 3] [(0, 2), (50, 1)] [(4, .fail .eof)] = some (.err .eof, 54) := by decide +kernel

end Healer
