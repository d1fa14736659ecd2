import Verif.Props.Settings
import Verif.Props.Brokers

/-!
# The texts accepted as numbers (C157), and the errors of the cluster (C34)
-/

namespace Healer

/-- A digit of the base, or an underscore between digits. -/
def BaseChar (base : Nat) (c : Char) : Prop :=
  c = '_' ∨ (48 ≤ c.toNat ∧ c.toNat ≤ 57 ∧ c.toNat < 48 + base) ∨
    (base = 16 ∧ ((97 ≤ c.toNat ∧ c.toNat ≤ 102) ∨ (65 ≤ c.toNat ∧ c.toNat ≤ 70)))

/-- A number as Go writes it, without sign: digits of the base that the prefix says. -/
inductive WrittenNumber : List Char → Prop
  | two (p : Char) (r : List Char) : p.toLower = 'b' → r ≠ [] → (∀ c ∈ r, BaseChar 2 c) → WrittenNumber ('0' :: p :: r)
  | eight (p : Char) (r : List Char) : p.toLower = 'o' → r ≠ [] → (∀ c ∈ r, BaseChar 8 c) → WrittenNumber ('0' :: p :: r)
  | sixteen (p : Char) (r : List Char) : p.toLower = 'x' → r ≠ [] → (∀ c ∈ r, BaseChar 16 c) → WrittenNumber ('0' :: p :: r)
  | zero (r : List Char) : (∀ c ∈ r, BaseChar 8 c) → WrittenNumber ('0' :: r)
  | ten (c : Char) (r : List Char) : c ≠ '0' → (∀ x ∈ c :: r, BaseChar 10 x) → WrittenNumber (c :: r)

theorem digitsIn_base {base : Nat} (hb : base = 2 ∨ base = 8 ∨ base = 10 ∨ base = 16) {s : List Char} {k n : Nat} (h : digitsIn base s k = some n) :
    ∀ c ∈ s, BaseChar base c := by
  induction s generalizing k with
  | nil => simp
  | cons c s ih =>
    rw [digitsIn] at h
    intro x hx
    by_cases hc : c = '_'
    · rw [if_pos hc] at h
      rcases List.mem_cons.1 hx with rfl | hx
      · exact .inl hc
      · exact ih h x hx
    · rw [if_neg hc] at h
      cases hd : charDigit c with
      | none => rw [hd] at h; cases h
      | some d =>
        rw [hd] at h
        simp only at h
        by_cases hl : d < base
        · rw [if_pos hl] at h
          rcases List.mem_cons.1 hx with rfl | hx
          · unfold charDigit at hd
            right
            split at hd
            · cases hd; left; omega
            · split at hd
              · cases hd; right; omega
              · split at hd
                · cases hd; right; omega
                · cases hd
          · exact ih h x hx
        · rw [if_neg hl] at h; cases h

theorem parseUnsigned_written {s : List Char} {n : Nat} (h : parseUnsigned s = some n) : WrittenNumber s := by
  unfold parseUnsigned at h
  split at h
  · cases h
  · unfold prefixed at h
    split at h
    · cases h
    · rename_i p d r _
      split at h
      · exact .two p _ (by assumption) (by simp) (digitsIn_base (by simp) h)
      · split at h
        · exact .eight p _ (by assumption) (by simp) (digitsIn_base (by simp) h)
        · split at h
          · exact .sixteen p _ (by assumption) (by simp) (digitsIn_base (by simp) h)
          · exact .zero _ (digitsIn_base (by simp) h)
    · exact .zero _ (digitsIn_base (by simp) h)
    · rename_i h0 h1 h2
      cases s with
      | nil => exact absurd rfl h0
      | cons c r => exact .ten c r (fun e => h2 r (by rw [e])) (digitsIn_base (by simp) h)

/-- A text that is a number: digits, with or without sign. -/
def SignedNumber (s : List Char) : Prop := WrittenNumber s ∨ ∃ r, (s = '-' :: r ∨ s = '+' :: r) ∧ WrittenNumber r

theorem parseSigned_written {s : List Char} {n : Int} (h : parseSigned s = some n) : SignedNumber s := by
  unfold parseSigned at h
  split at h
  · obtain ⟨k, hk, -⟩ := Option.map_eq_some_iff.1 h
    exact .inr ⟨_, .inl rfl, parseUnsigned_written hk⟩
  · obtain ⟨k, hk, -⟩ := Option.map_eq_some_iff.1 h
    exact .inr ⟨_, .inr rfl, parseUnsigned_written hk⟩
  · obtain ⟨k, hk, -⟩ := Option.map_eq_some_iff.1 h
    exact .inl (parseUnsigned_written hk)

theorem intField_written {m : Settings} {key s : String} {bits : Nat} {old r : Int} (hg : Gives m key (.text s)) (h : intField key bits m old = .ok r) :
    s = "" ∨ SignedNumber s.toList := by
  unfold intField at h
  rw [findSetting_gives hg] at h
  unfold decodeInt at h
  simp only at h
  by_cases hs : s = ""
  · exact .inl hs
  · rw [if_neg hs] at h
    cases hp : parseIntText bits s with
    | none => rw [hp] at h; cases h
    | some v =>
      unfold parseIntText at hp
      obtain ⟨w, hw, -⟩ := Option.bind_eq_some_iff.1 hp
      exact .inr (parseSigned_written hw)

/-- C157: a consumer is refused a map that has, for a number, a text which is neither empty nor a number: with a digit that its base has not, say. -/
theorem C157_refused_digits (shown : Int → Int → String) (kind : ConsumerKind) (dflt c : ConsumerConfig) (m : Settings) (h h' : IntArrays)
    (ha : acceptConsumer kind dflt (.map (ConsumerConfig.decode shown m)) h = .ok (h', .ok c)) (f : String × Nat × (ConsumerConfig → Int))
    (hf : f ∈ consumerNumbers) (s : String) (hg : Gives m f.1 (.text s)) : s = "" ∨ SignedNumber s.toList := by
  obtain ⟨d, hd, hc⟩ := accepted_map ha
  unfold ConsumerConfig.decode at hd
  simp only [except_bind_ok] at hd
  obtain ⟨x1, h1, x2, h2, x3, h3, x4, h4, x5, h5, x6, h6, x7, h7, x8, h8, x9, h9, x10, h10, x11, h11, x12, h12, x13, h13, x14, h14, x15, h15, h16⟩ := hd
  simp only [consumerNumbers, List.mem_cons, List.not_mem_nil, or_false] at hf
  rcases hf with rfl | rfl | rfl | rfl | rfl | rfl | rfl | rfl | rfl
  · exact intField_written hg h5
  · exact intField_written hg h6
  · exact intField_written hg h7
  · exact intField_written hg h8
  · exact intField_written hg h9
  · exact intField_written hg h10
  · exact intField_written hg h13
  · exact intField_written hg h14
  · exact intField_written hg h15

/-- the number 08 is none, so a map with it is refused -/
example : ¬ SignedNumber ['0', '8'] ∧ acceptedConfig (groupConsumerFrom (sampleSettings ("session.timeout.ms", .text "08"))) = none := by
  refine ⟨?_, by decide +kernel⟩
  rintro (h | ⟨r, hr | hr, -⟩)
  · cases h with
    | two p r hp => revert hp; decide
    | eight p r hp => revert hp; decide
    | sixteen p r hp => revert hp; decide
    | zero r h =>
      have := h '8' (by simp)
      unfold BaseChar at this
      revert this; decide
    | ten c r h => exact h rfl
  · cases hr
  · cases hr

example : (acceptedConfig (groupConsumerFrom (sampleSettings ("session.timeout.ms", .text "0x1770")))).map (·.sessionTimeoutMS) = some 6000 := by decide +kernel

/-- An error that a broker sent, however often it was wrapped on its way. -/
inductive FromCluster : Err → Prop
  | code (c : Int16) : FromCluster (.kafka c)
  | wrapped (e : Err) : FromCluster e → FromCluster (.wrapped e)

/-- C34: what `C34_failover` takes for an answer that is an error of the cluster is an error that a broker sent, and nothing else. -/
theorem C34_answered (h : Nat) (ts : List Bytes) (r : MetadataResponse) (e : Err) :
    (Done.metadata h ts (r, some e)).answered = true ↔ FromCluster e := by
  show e.isKafka = true ↔ _
  constructor
  · intro h
    induction e with
    | kafka c => exact .code c
    | wrapped e ih => exact .wrapped e (ih h)
    | _ => cases h
  · intro h
    induction h with
    | code c => rfl
    | wrapped e _ ih => exact ih

example : FromCluster (.wrapped (.kafka 5)) ∧ ¬ FromCluster .timeout := ⟨.wrapped _ (.code 5), nofun⟩

end Healer
