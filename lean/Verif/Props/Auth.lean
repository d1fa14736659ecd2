import Verif.Model.Auth
import Verif.Spec.Base64

/-!
C142: who is let through by the HTTP API.
-/

namespace Healer

/-! ### base64 -/

theorem b64Value_char : ∀ v : Fin 64, b64Value (Rfc.char v.1) = some v.1 := by decide

theorem b64Value_char' {v : Nat} (h : v < 64) : b64Value (Rfc.char v) = some v := b64Value_char ⟨v, h⟩

theorem b64Value_sextet_all : ∀ c : Fin 256, Rfc.sextet (UInt8.ofNat c.1) = (b64Value (UInt8.ofNat c.1)).map (Rfc.bitsOf 6) := by decide +kernel

theorem b64Value_sextet (c : UInt8) : Rfc.sextet c = (b64Value c).map (Rfc.bitsOf 6) := by
  have := b64Value_sextet_all ⟨c.toNat, c.toNat_lt⟩
  simpa using this

theorem b64Value_lt_all : ∀ c : Fin 256, ∀ v ∈ b64Value (UInt8.ofNat c.1), v < 64 := by decide +kernel

theorem b64Value_lt {c : UInt8} {v : Nat} (h : b64Value c = some v) : v < 64 := by
  have := b64Value_lt_all ⟨c.toNat, c.toNat_lt⟩ v
  simp only [UInt8.ofNat_toNat] at this
  exact this (by rw [h]; rfl)

theorem quantumByte_eq {a b c d : Nat} {i : Nat} {x : UInt8}
    (h : (a * 2 ^ 18 + b * 2 ^ 12 + c * 2 ^ 6 + d) / 2 ^ (16 - 8 * i) % 256 = x.toNat) : quantumByte a b c d i = x := by
  apply UInt8.toNat_inj.mp
  rw [quantumByte, UInt8.toNat_ofNat']
  exact h

/-- decoding undoes the encoding of RFC 4648 -/
theorem b64Decode_encode (m : Bytes) : b64Decode [] (Rfc.encode m) = m := by
  induction m using Rfc.encode.induct with
  | case1 => rfl
  | case2 a =>
    have ha := a.toNat_lt
    simp only [Rfc.encode, b64Decode, b64Value_char' (show a.toNat / 4 < 64 by omega), b64Value_char' (show a.toNat % 4 * 16 < 64 by omega),
      List.nil_append, List.cons_append]
    rw [show b64Value 61 = none from by decide]
    simp only [show ¬((61 : UInt8) = 10 ∨ (61 : UInt8) = 13) from by decide, if_false, if_true, lastQuantum]
    rw [if_pos (by decide)]
    congr 1
    apply quantumByte_eq
    show _ / 2 ^ 16 % 256 = _
    omega
  | case3 a b =>
    have ha := a.toNat_lt
    have hb := b.toNat_lt
    simp only [Rfc.encode, b64Decode, b64Value_char' (show a.toNat / 4 < 64 by omega),
      b64Value_char' (show a.toNat % 4 * 16 + b.toNat / 16 < 64 by omega), b64Value_char' (show b.toNat % 16 * 4 < 64 by omega),
      List.nil_append, List.cons_append]
    rw [show b64Value 61 = none from by decide]
    simp only [show ¬((61 : UInt8) = 10 ∨ (61 : UInt8) = 13) from by decide, if_false, if_true, lastQuantum]
    congr 1
    · apply quantumByte_eq
      show _ / 2 ^ 16 % 256 = _
      omega
    · congr 1
      apply quantumByte_eq
      show _ / 2 ^ 8 % 256 = _
      omega
  | case4 a b c rest ih =>
    have ha := a.toNat_lt
    have hb := b.toNat_lt
    have hc := c.toNat_lt
    simp only [Rfc.encode, b64Decode, b64Value_char' (show a.toNat / 4 < 64 by omega),
      b64Value_char' (show a.toNat % 4 * 16 + b.toNat / 16 < 64 by omega), b64Value_char' (show b.toNat % 16 * 4 + c.toNat / 64 < 64 by omega),
      b64Value_char' (show c.toNat % 64 < 64 by omega), List.nil_append, List.cons_append, ih]
    congr 1
    · apply quantumByte_eq
      show _ / 2 ^ 16 % 256 = _
      omega
    · congr 1
      · apply quantumByte_eq
        show _ / 2 ^ 8 % 256 = _
        omega
      · congr 1
        apply quantumByte_eq
        show _ / 2 ^ 0 % 256 = _
        omega

/-! ### bits -/

theorem bitsOf_append (n m a b : Nat) (h : b < 2 ^ m) : Rfc.bitsOf (n + m) (a * 2 ^ m + b) = Rfc.bitsOf n a ++ Rfc.bitsOf m b := by
  induction n with
  | zero =>
    rw [Nat.zero_add, Rfc.bitsOf, List.nil_append]
    -- the upper bits do not count
    have key : ∀ k, k ≤ m → Rfc.bitsOf k (a * 2 ^ m + b) = Rfc.bitsOf k b := by
      intro k
      induction k with
      | zero => intro _; rfl
      | succ k ih =>
        intro hk
        rw [Rfc.bitsOf, Rfc.bitsOf, ih (by omega)]
        have e : a * 2 ^ m = 2 * (a * 2 ^ (m - k - 1)) * 2 ^ k := by
          have : (2 : Nat) ^ m = 2 ^ (m - k - 1) * 2 * 2 ^ k := by
            rw [← Nat.pow_succ, ← Nat.pow_add]; congr 1; omega
          rw [this]; ac_rfl
        rw [e, Nat.add_comm, Nat.add_mul_div_right _ _ (Nat.two_pow_pos k), Nat.add_mul_mod_self_left]
    exact key m (Nat.le_refl m)
  | succ n ih =>
    rw [show n + 1 + m = (n + m) + 1 by omega, Rfc.bitsOf, Rfc.bitsOf, ih, List.cons_append]
    have e : (a * 2 ^ m + b) / 2 ^ (n + m) = a / 2 ^ n := by
      rw [Nat.add_comm n m, Nat.pow_add, ← Nat.div_div_eq_div_mul]
      congr 1
      rw [Nat.add_comm, Nat.add_mul_div_right _ _ (Nat.two_pow_pos m), Nat.div_eq_of_lt h, Nat.zero_add]
    rw [e]

theorem bitsOf_mod (v : Nat) : Rfc.bitsOf 8 (v % 256) = Rfc.bitsOf 8 v := by
  have := bitsOf_append 0 8 (v / 256) (v % 256) (Nat.mod_lt _ (by decide))
  rw [show v / 256 * 2 ^ 8 + v % 256 = v by omega] at this
  simpa [Rfc.bitsOf] using this.symm

theorem bits_cons (b : UInt8) (m : Bytes) : Rfc.bits (b :: m) = Rfc.bitsOf 8 b.toNat ++ Rfc.bits m := rfl

theorem bits_append (l m : Bytes) : Rfc.bits (l ++ m) = Rfc.bits l ++ Rfc.bits m := List.flatMap_append

theorem bitsOf_ofNat (v : Nat) : Rfc.bitsOf 8 (UInt8.ofNat v).toNat = Rfc.bitsOf 8 v := by
  rw [UInt8.toNat_ofNat', bitsOf_mod]

theorem bitsOf_24 (v : Nat) : Rfc.bitsOf 24 v = Rfc.bitsOf 8 (v / 2 ^ 16) ++ Rfc.bitsOf 8 (v / 2 ^ 8) ++ Rfc.bitsOf 8 v := by
  rw [← bitsOf_mod (v / 2 ^ 8), ← bitsOf_mod v, ← bitsOf_append 8 8 _ _ (by omega), ← bitsOf_append 16 8 _ _ (by omega)]
  rw [show (v / 2 ^ 16 * 2 ^ 8 + v / 2 ^ 8 % 256) * 2 ^ 8 + v % 256 = v by omega]

theorem bits_quantum {a b c d : Nat} (hb : b < 64) (hc : c < 64) (hd : d < 64) (rest : Bytes) :
    Rfc.bits (quantumByte a b c d 0 :: quantumByte a b c d 1 :: quantumByte a b c d 2 :: rest)
      = Rfc.bitsOf 6 a ++ Rfc.bitsOf 6 b ++ Rfc.bitsOf 6 c ++ Rfc.bitsOf 6 d ++ Rfc.bits rest := by
  have e1 : Rfc.bitsOf 24 (a * 2 ^ 18 + b * 2 ^ 12 + c * 2 ^ 6 + d) = Rfc.bitsOf 6 a ++ Rfc.bitsOf 6 b ++ Rfc.bitsOf 6 c ++ Rfc.bitsOf 6 d := by
    rw [← bitsOf_append 6 6 a b (by omega), ← bitsOf_append 12 6 _ c (by omega), ← bitsOf_append 18 6 _ d (by omega)]
    rw [show a * 2 ^ 18 + b * 2 ^ 12 + c * 2 ^ 6 + d = ((a * 2 ^ 6 + b) * 2 ^ 6 + c) * 2 ^ 6 + d by omega]
  rw [← e1, bitsOf_24, bits_cons, bits_cons, bits_cons, quantumByte, quantumByte, quantumByte, bitsOf_ofNat, bitsOf_ofNat, bitsOf_ofNat]
  simp only [List.append_assoc, Nat.mul_zero, Nat.sub_zero, Nat.mul_one, Nat.reduceSub, Nat.reduceMul, Nat.pow_zero, Nat.div_one]

theorem lastQuantum_bits {acc : List Nat} (hacc : ∀ v ∈ acc, v < 64) (cs : Bytes) :
    Rfc.bits (lastQuantum acc cs) <+: acc.flatMap (Rfc.bitsOf 6) := by
  unfold lastQuantum
  split
  · rename_i a b
    have ha : a < 64 := hacc a (by simp)
    have hb : b < 64 := hacc b (by simp)
    split
    · rw [bits_cons, quantumByte, bitsOf_ofNat]
      have e : Rfc.bitsOf 12 (a * 2 ^ 6 + b) = Rfc.bitsOf 6 a ++ Rfc.bitsOf 6 b := bitsOf_append 6 6 a b (by omega)
      have e2 := bitsOf_append 8 4 ((a * 2 ^ 6 + b) / 16) ((a * 2 ^ 6 + b) % 16) (by omega)
      rw [show (a * 2 ^ 6 + b) / 16 * 2 ^ 4 + (a * 2 ^ 6 + b) % 16 = a * 2 ^ 6 + b by omega] at e2
      simp only [List.flatMap_cons, List.flatMap_nil, List.append_nil, Rfc.bits, ← e, e2]
      rw [show (a * 2 ^ 18 + b * 2 ^ 12 + 0 * 2 ^ 6 + 0) / 2 ^ (16 - 8 * 0) = (a * 2 ^ 6 + b) / 16 by
        show _ / 2 ^ 16 = _; omega]
      exact List.prefix_append _ _
    · exact List.nil_prefix
  · rename_i a b c
    have ha : a < 64 := hacc a (by simp)
    have hb : b < 64 := hacc b (by simp)
    have hc : c < 64 := hacc c (by simp)
    rw [bits_cons, bits_cons, quantumByte, quantumByte, bitsOf_ofNat, bitsOf_ofNat]
    have e : Rfc.bitsOf 18 ((a * 2 ^ 6 + b) * 2 ^ 6 + c) = Rfc.bitsOf 6 a ++ Rfc.bitsOf 6 b ++ Rfc.bitsOf 6 c := by
      rw [← bitsOf_append 6 6 a b (by omega), ← bitsOf_append 12 6 _ c (by omega)]
    let v := (a * 2 ^ 6 + b) * 2 ^ 6 + c
    have e2 := bitsOf_append 8 8 (v / 2 ^ 10) (v / 4 % 256) (by omega)
    have e3 := bitsOf_append 16 2 (v / 4) (v % 4) (by omega)
    rw [show v / 4 * 2 ^ 2 + v % 4 = v by omega, show v / 4 = v / 2 ^ 10 * 2 ^ 8 + v / 4 % 256 by omega] at e3
    rw [show (8 : Nat) + 8 = 16 by rfl] at e2
    rw [e2, bitsOf_mod] at e3
    simp only [List.flatMap_cons, List.flatMap_nil, List.append_nil, Rfc.bits]
    rw [show (a * 2 ^ 18 + b * 2 ^ 12 + c * 2 ^ 6 + 0) / 2 ^ (16 - 8 * 0) = v / 2 ^ 10 by
        show _ / 2 ^ 16 = _; show _ = ((a * 2 ^ 6 + b) * 2 ^ 6 + c) / 2 ^ 10; omega,
      show (a * 2 ^ 18 + b * 2 ^ 12 + c * 2 ^ 6 + 0) / 2 ^ (16 - 8 * 1) = v / 4 by
        show _ / 2 ^ 8 = _; show _ = ((a * 2 ^ 6 + b) * 2 ^ 6 + c) / 4; omega]
    rw [← List.append_assoc, ← e]
    exact ⟨_, e3.symm⟩
  · exact List.nil_prefix

/-- what is decoded was spelled out -/
theorem b64Decode_spelled (x : Bytes) : ∀ acc : List Nat, acc.length ≤ 3 → (∀ v ∈ acc, v < 64) →
    Rfc.bits (b64Decode acc x) <+: acc.flatMap (Rfc.bitsOf 6) ++ Rfc.spelled x := by
  induction x with
  | nil => intro acc _ _; exact List.nil_prefix
  | cons c cs ih =>
    intro acc hl hacc
    rw [b64Decode]
    rcases hv : b64Value c with _ | v
    · simp only
      by_cases hb : c = 10 ∨ c = 13
      · rw [if_pos hb, Rfc.spelled, if_pos hb]
        exact ih acc hl hacc
      · rw [if_neg hb]
        split
        · exact (lastQuantum_bits hacc cs).trans (List.prefix_append _ _)
        · exact List.nil_prefix
    · have hlt := b64Value_lt hv
      have hb : ¬(c = 10 ∨ c = 13) := by
        rintro (rfl | rfl)
        · rw [show b64Value 10 = none from by decide] at hv; cases hv
        · rw [show b64Value 13 = none from by decide] at hv; cases hv
      have hs : Rfc.spelled (c :: cs) = Rfc.bitsOf 6 v ++ Rfc.spelled cs := by
        rw [Rfc.spelled, if_neg hb, b64Value_sextet, hv]; rfl
      rw [hs]
      simp only
      split
      · rename_i a b d
        have h0 := ih [] (by simp) (by simp)
        rw [bits_quantum (hacc b (by simp)) (hacc d (by simp)) hlt]
        simp only [List.flatMap_cons, List.flatMap_nil, List.append_nil, List.nil_append, List.append_assoc] at h0 ⊢
        exact List.prefix_append_right_inj _ |>.mpr (List.prefix_append_right_inj _ |>.mpr (List.prefix_append_right_inj _ |>.mpr (List.prefix_append_right_inj _ |>.mpr h0)))
      · rename_i hne
        have hl2 : acc.length ≤ 2 := by
          rcases acc with _ | ⟨a, _ | ⟨b, _ | ⟨d, _ | ⟨e, acc⟩⟩⟩⟩ <;> simp at hl ⊢
          exact hne a b d rfl
        have := ih (acc ++ [v]) (by simp; omega) (by
          intro w hw
          rcases List.mem_append.mp hw with h | h
          · exact hacc w h
          · rw [List.mem_singleton.mp h]; exact hlt)
        simpa [List.flatMap_append, List.append_assoc] using this

/-! ### splitting -/

theorem splitTwo_append {sep : UInt8} {l : Bytes} (h : sep ∉ l) (r : Bytes) : splitTwo sep (l ++ sep :: r) = some (l, r) := by
  induction l with
  | nil => rw [List.nil_append, splitTwo, if_pos rfl]
  | cons c l ih =>
    simp only [List.mem_cons, not_or] at h
    rw [List.cons_append, splitTwo, if_neg (Ne.symm h.1), ih h.2]
    rfl

theorem splitTwo_some {sep : UInt8} {s l r : Bytes} (h : splitTwo sep s = some (l, r)) : s = l ++ sep :: r ∧ sep ∉ l := by
  induction s generalizing l with
  | nil => cases h
  | cons c s ih =>
    rw [splitTwo] at h
    by_cases hc : c = sep
    · rw [if_pos hc] at h
      cases h
      exact ⟨by rw [hc]; rfl, by simp⟩
    · rw [if_neg hc] at h
      rcases hs : splitTwo sep s with _ | ⟨l', r'⟩
      · rw [hs] at h; cases h
      · rw [hs] at h
        cases h
        obtain ⟨e, hn⟩ := ih hs
        exact ⟨by rw [e]; rfl, by simp only [List.mem_cons, not_or]; exact ⟨fun e => hc e.symm, hn⟩⟩

theorem splitTwo_none {sep : UInt8} {s : Bytes} (h : sep ∉ s) : splitTwo sep s = none := by
  rcases hs : splitTwo sep s with _ | ⟨l, r⟩
  · rfl
  · exact absurd ((splitTwo_some hs).1 ▸ List.mem_append_right _ (List.mem_cons_self)) h

/-- the header is accepted exactly if its text decodes to user and password -/
theorem credentialsOk_iff {user : Bytes} (hu : 58 ∉ user) (pass header : Bytes) :
    credentialsOk user pass header = true
      ↔ ∃ text, header = [66, 97, 115, 105, 99] ++ 32 :: text ∧ b64Decode [] text = Rfc.userPass user pass := by
  constructor
  · intro h
    unfold credentialsOk at h
    rcases hs : splitTwo 32 header with _ | ⟨scheme, text⟩
    · rw [hs] at h; cases h
    rw [hs] at h
    simp only at h
    split at h
    · cases h
    · rename_i hsch
      rcases hp : splitTwo 58 (b64Decode [] text) with _ | ⟨u, p⟩
      · rw [hp] at h; cases h
      rw [hp] at h
      simp only [Bool.not_eq_true', Bool.or_eq_false_iff, decide_eq_false_iff_not, ne_eq, Classical.not_not] at h hsch
      refine ⟨text, ?_, ?_⟩
      · rw [(splitTwo_some hs).1, hsch]
      · rw [(splitTwo_some hp).1, h.1, h.2]; rfl
  · rintro ⟨text, rfl, hd⟩
    unfold credentialsOk
    rw [splitTwo_append (by decide)]
    simp only [ne_eq, not_true_eq_false, if_false, hd, Rfc.userPass]
    rw [splitTwo_append hu]
    simp

/-! ### the property -/

/-- Requests let through without credentials: reading ones, if `--get-allowed` is given. -/
def Exempt (getAllowed : Bool) (r : HttpReq) : Prop := getAllowed = true ∧ (r.method = "GET".toUTF8.toList ∨ r.method = "HEAD".toUTF8.toList ∨ r.method = "OPTIONS".toUTF8.toList)

theorem exempt_iff (getAllowed : Bool) (r : HttpReq) : (getAllowed && readOnly r.method) = true ↔ Exempt getAllowed r := by
  have h1 : "GET".toUTF8.toList = [71, 69, 84] := by decide +kernel
  have h2 : "HEAD".toUTF8.toList = [72, 69, 65, 68] := by decide +kernel
  have h3 : "OPTIONS".toUTF8.toList = [79, 80, 84, 73, 79, 78, 83] := by decide +kernel
  unfold Exempt readOnly
  rw [h1, h2, h3]
  simp only [Bool.and_eq_true, Bool.or_eq_true, decide_eq_true_eq]
  constructor
  · rintro ⟨h, (h' | h') | h'⟩
    · exact ⟨h, .inr (.inr h')⟩
    · exact ⟨h, .inr (.inl h')⟩
    · exact ⟨h, .inl h'⟩
  · rintro ⟨h, h' | h' | h'⟩
    · exact ⟨h, .inr h'⟩
    · exact ⟨h, .inl (.inr h')⟩
    · exact ⟨h, .inl (.inl h')⟩

/-- the server started with `--auth user:password` -/
theorem apiServer_eq {user : Bytes} (hu : 58 ∉ user) (pass : Bytes) (getAllowed cors : Bool) :
    apiServer (Rfc.userPass user pass) getAllowed cors
      = some fun r => if basicAuth user pass getAllowed r then corsStage cors r else .unauthorized := by
  unfold apiServer
  rw [if_neg (by simp [Rfc.userPass]), Rfc.userPass, splitTwo_append hu]

theorem basicAuth_iff (user pass : Bytes) (getAllowed : Bool) (r : HttpReq) :
    basicAuth user pass getAllowed r = true ↔ Exempt getAllowed r ∨ credentialsOk user pass r.authorization = true := by
  unfold basicAuth
  by_cases h : (getAllowed && readOnly r.method) = true
  · rw [if_pos h]; exact ⟨fun _ => .inl ((exempt_iff _ _).mp h), fun _ => rfl⟩
  · rw [if_neg h]
    exact ⟨.inr, fun h' => h'.resolve_left fun e => h ((exempt_iff _ _).mpr e)⟩

theorem corsStage_ne (cors : Bool) (r : HttpReq) : corsStage cors r ≠ .unauthorized := by
  unfold corsStage
  cases cors
  · simp
  · simp only [if_true]; split <;> simp

/-- With `--auth user:password`, a request carrying other credentials, encoded as RFC 7617 says, is refused, and one carrying these is let through.
Users with a colon cannot be named (RFC 7617 forbids them).
Missing: preflight requests (`C142_violated_preflight`). -/
theorem C142_exact_partial (user pass user' pass' : Bytes) (hu : 58 ∉ user) (hu' : 58 ∉ user') (getAllowed cors : Bool) (method : Bytes)
    (hm : ¬Exempt getAllowed ⟨method, Rfc.basic user' pass'⟩) :
    ∃ serve, apiServer (Rfc.userPass user pass) getAllowed cors = some serve
      ∧ (serve ⟨method, Rfc.basic user' pass'⟩ ≠ .unauthorized ↔ user' = user ∧ pass' = pass) := by
  refine ⟨_, apiServer_eq hu pass getAllowed cors, ?_⟩
  have hc := credentialsOk_iff hu pass (Rfc.basic user' pass')
  have hb := basicAuth_iff user pass getAllowed ⟨method, Rfc.basic user' pass'⟩
  have key : basicAuth user pass getAllowed ⟨method, Rfc.basic user' pass'⟩ = true ↔ user' = user ∧ pass' = pass := by
    rw [hb]
    simp only [hm, false_or]
    rw [hc]
    constructor
    · rintro ⟨text, e, hd⟩
      have e2 : text = Rfc.encode (Rfc.userPass user' pass') := by
        have : ([66, 97, 115, 105, 99, 32] : Bytes) ++ Rfc.encode (Rfc.userPass user' pass') = [66, 97, 115, 105, 99, 32] ++ text := e
        exact (List.append_cancel_left this).symm
      rw [e2, b64Decode_encode] at hd
      have s1 := splitTwo_append hu' pass'
      have s2 := splitTwo_append hu pass
      rw [Rfc.userPass, Rfc.userPass] at hd
      rw [hd, s2] at s1
      cases s1
      exact ⟨rfl, rfl⟩
    · rintro ⟨rfl, rfl⟩
      exact ⟨_, rfl, b64Decode_encode _⟩
  rw [← key]
  constructor
  · intro h
    by_cases hb : basicAuth user pass getAllowed ⟨method, Rfc.basic user' pass'⟩ = true
    · exact hb
    · exact absurd (if_neg hb) h
  · intro h
    show (if basicAuth user pass getAllowed ⟨method, Rfc.basic user' pass'⟩ = true then _ else _) ≠ _
    rw [if_pos h]
    exact corsStage_ne _ _

/-- With `--auth user:password`, a request that is not exempt and yet let through, whatever its header, has spelled out the user and the password. -/
theorem C142_known (user pass : Bytes) (hu : 58 ∉ user) (getAllowed cors : Bool) (r : HttpReq) (hm : ¬Exempt getAllowed r)
    (serve : HttpReq → Handled) (hs : apiServer (Rfc.userPass user pass) getAllowed cors = some serve) (h : serve r ≠ .unauthorized) :
    ∃ text, r.authorization = "Basic ".toUTF8.toList ++ text ∧ Rfc.bits (Rfc.userPass user pass) <+: Rfc.spelled text := by
  rw [apiServer_eq hu] at hs
  cases hs
  by_cases hb : basicAuth user pass getAllowed r = true
  · obtain ⟨text, e, hd⟩ := (credentialsOk_iff hu pass _).mp (((basicAuth_iff user pass getAllowed r).mp hb).resolve_left hm)
    refine ⟨text, ?_, ?_⟩
    · rw [e, show "Basic ".toUTF8.toList = [66, 97, 115, 105, 99, 32] from by decide +kernel]; rfl
    · have := b64Decode_spelled text [] (by simp) (by simp)
      rw [hd] at this
      simpa using this
  · exact absurd (if_neg hb) h

/-- A value of `--auth` without colon is refused when the server starts; it does not start without authentication. -/
theorem C142_format (auth : Bytes) (hne : auth ≠ []) (h : 58 ∉ auth) (getAllowed cors : Bool) : apiServer auth getAllowed cors = none := by
  unfold apiServer
  rw [if_neg hne, splitTwo_none h]

/-- A request that is let in is handed to its handler, with the CORS headers if --cors is given; then preflight requests are answered. -/
theorem C142_admitted (auth : Bytes) (getAllowed cors : Bool) (r : HttpReq) (serve : HttpReq → Handled) (hs : apiServer auth getAllowed cors = some serve)
    (h : serve r ≠ .unauthorized) :
    (cors = true → r.method = "OPTIONS".toUTF8.toList → serve r = .preflight) ∧
    (cors = false ∨ r.method ≠ "OPTIONS".toUTF8.toList → serve r = .handler cors) := by
  have key : serve r = corsStage cors r := by
    unfold apiServer at hs
    by_cases ha : auth = []
    · rw [if_pos ha] at hs
      cases hs
      rfl
    · rw [if_neg ha] at hs
      cases hp : splitTwo 58 auth with
      | none =>
        rw [hp] at hs
        cases hs
      | some up =>
        rw [hp] at hs
        cases hs
        by_cases hb : basicAuth up.1 up.2 getAllowed r = true
        · exact if_pos hb
        · exact absurd (if_neg hb) h
  have ho : "OPTIONS".toUTF8.toList = ([79, 80, 84, 73, 79, 78, 83] : Bytes) := by decide +kernel
  rw [key, ho]
  unfold corsStage
  constructor
  · intro h1 h2
    rw [if_pos h1, if_pos h2]
  · rintro (rfl | h2)
    · rfl
    · rw [if_neg h2]
      cases cors <;> rfl

/-- Reading requests are exempt only when asked for. -/
theorem C142_get_allowed (user pass : Bytes) (hu : 58 ∉ user) (getAllowed cors : Bool) (r : HttpReq) (hr : r.authorization = []) :
    ∃ serve, apiServer (Rfc.userPass user pass) getAllowed cors = some serve ∧ (serve r ≠ .unauthorized ↔ Exempt getAllowed r) := by
  refine ⟨_, apiServer_eq hu pass getAllowed cors, ?_⟩
  have hno : ¬credentialsOk user pass r.authorization = true := by
    rw [hr, credentialsOk_iff hu]
    rintro ⟨text, e, _⟩
    cases e
  have hb := basicAuth_iff user pass getAllowed r
  rw [or_iff_left hno] at hb
  rw [← hb]
  constructor
  · intro h
    by_cases h' : basicAuth user pass getAllowed r = true
    · exact h'
    · exact absurd (if_neg h') h
  · intro h
    show (if basicAuth user pass getAllowed r = true then _ else _) ≠ _
    rw [if_pos h]
    exact corsStage_ne _ _

/-- With `--cors` and `--auth` together, the preflight request of a browser, which never carries credentials, is refused before the CORS headers are set:
the API cannot be used from a page although that was asked for. -/
theorem C142_violated_preflight (user pass : Bytes) (hu : 58 ∉ user) :
    ∃ serve, apiServer (Rfc.userPass user pass) false true = some serve ∧ serve ⟨"OPTIONS".toUTF8.toList, []⟩ = .unauthorized := by
  obtain ⟨serve, h, hi⟩ := C142_get_allowed user pass hu false true ⟨"OPTIONS".toUTF8.toList, []⟩ rfl
  refine ⟨serve, h, ?_⟩
  by_cases hc : serve ⟨"OPTIONS".toUTF8.toList, []⟩ = .unauthorized
  · exact hc
  · exact absurd (hi.mp hc).1 (by simp)

/-- The name of the scheme does not depend on case (RFC 7235); right credentials after "basic" are refused all the same. -/
theorem C142_violated_case (user pass : Bytes) (hu : 58 ∉ user) (cors : Bool) :
    ∃ serve, apiServer (Rfc.userPass user pass) false cors = some serve
      ∧ serve ⟨"POST".toUTF8.toList, "basic ".toUTF8.toList ++ Rfc.encode (Rfc.userPass user pass)⟩ = .unauthorized := by
  refine ⟨_, apiServer_eq hu pass false cors, if_neg ?_⟩
  rw [basicAuth_iff, credentialsOk_iff hu]
  rintro (h | ⟨text, e, _⟩)
  · exact absurd h.1 (by simp)
  · rw [show "basic ".toUTF8.toList = [98, 97, 115, 105, 99, 32] from by decide +kernel] at e
    cases e

/-- user "admin", password "a:b" -/
example : Rfc.basic "admin".toUTF8.toList "a:b".toUTF8.toList = "Basic YWRtaW46YTpi".toUTF8.toList := by decide +kernel

example : ∃ serve, apiServer "admin:a:b".toUTF8.toList true false = some serve
    ∧ serve ⟨"POST".toUTF8.toList, "Basic YWRtaW46YTpi".toUTF8.toList⟩ = .handler false
    ∧ serve ⟨"POST".toUTF8.toList, "Basic YWRtaW46YTpj".toUTF8.toList⟩ = .unauthorized
    ∧ serve ⟨"GET".toUTF8.toList, []⟩ = .handler false
    -- what comes after the padding is not looked at
    ∧ serve ⟨"POST".toUTF8.toList, "Basic YWRtaW46YTpi!".toUTF8.toList⟩ = .handler false := by
  have e : "admin:a:b".toUTF8.toList = Rfc.userPass "admin".toUTF8.toList "a:b".toUTF8.toList := by decide +kernel
  rw [e]
  exact ⟨_, apiServer_eq (by decide +kernel) _ _ _, by decide +kernel, by decide +kernel, by decide +kernel, by decide +kernel⟩

end Healer
