import Verif.Props.AclTools

/-!
# C164: what becomes of backslashes and quotes in the flags of the tools for ACLs
-/

namespace Rfc

/-- RFC 8259, section 7: the escapes of one character, and what they stand for -/
def escapes : List (Char × Char) :=
  [('"', '"'), ('\\', '\\'), ('/', '/'), ('b', '\x08'), ('f', '\x0c'), ('n', '\n'), ('r', '\x0d'), ('t', '\t')]

/-- a digit of base sixteen, small or capital -/
def hexDigits (capital : Bool) : List Char :=
  ['0', '1', '2', '3', '4', '5', '6', '7', '8', '9'] ++ if capital then ['A', 'B', 'C', 'D', 'E', 'F'] else ['a', 'b', 'c', 'd', 'e', 'f']

end Rfc

namespace Healer

theorem jsonChars_escape (c x : Char) (rest : List Char) (hu : c ≠ 'u') (h : jsonEscape c = some x) :
    jsonChars ('\\' :: c :: rest) = (jsonChars rest).map (x :: ·) := by
  rw [jsonChars.eq_def]
  split
  · rename_i h; cases h
  · rename_i h'; exact absurd (List.cons.inj (List.cons.inj h').2).1 hu
  · rename_i c' rest' _ h'
    obtain ⟨-, h'⟩ := List.cons.inj h'
    obtain ⟨rfl, rfl⟩ := List.cons.inj h'
    rw [h]
    cases jsonChars rest <;> rfl
  · rename_i h'; cases h'
  · rename_i hx _ _ h'
    obtain ⟨rfl, rfl⟩ := List.cons.inj h'
    simp_all

theorem jsonChars_unicode (a b c d : Char) (n : Nat) (rest : List Char) (h : hex4 a b c d = some n) :
    jsonChars ('\\' :: 'u' :: a :: b :: c :: d :: rest) = (jsonChars rest).map ((if n.isValidChar then Char.ofNat n else Char.ofNat 0xFFFD) :: ·) := by
  rw [jsonChars.eq_def]
  split
  · rename_i h'; cases h'
  · rename_i h'
    cases h'
    rw [h]
    cases jsonChars rest <;> rfl
  · rename_i hx h'
    cases h'
    exact absurd rfl (hx _ _ _ _ _ rfl)
  · rename_i h'; cases h'
  · rename_i hx _ _ h'
    cases h'
    exact absurd rfl (hx _ _ _ _ _ rfl)

theorem hexDigit_digits (cap : Bool) (k : Nat) (c : Char) (h : (Rfc.hexDigits cap)[k]? = some c) : hexDigit c = some k := by
  have hk : k < 16 := by
    have := (List.getElem?_eq_some_iff.1 h).1
    cases cap <;> exact this
  have all : ∀ cap : Bool, ∀ k : Fin 16, ∀ c, (Rfc.hexDigits cap)[k.1]? = some c → hexDigit c = some k.1 := by
    intro cap k c h
    have : ∀ cap : Bool, ∀ k : Fin 16, ((Rfc.hexDigits cap)[k.1]?).map hexDigit = some (some k.1) := by decide
    have := this cap k
    rw [h] at this
    exact Option.some.inj this
  exact all cap ⟨k, hk⟩ c h

/-- **C164 is violated for every escape.** For each pair of a backslash and a character that JSON knows, the resource asked for is another one than was given, with the pair replaced by
what it stands for there. -/
theorem C164_violated_every_escape (f : AclFlags) (a b : String) (ha : PlainText a.toList) (hb : PlainText b.toList) (c x : Char) (hc : (c, x) ∈ Rfc.escapes) :
    ∃ q, aclFilterCmd { f with resource := some (String.ofList (a.toList ++ '\\' :: c :: b.toList)) } = .ok q ∧
      q.resourceName = some (String.ofList (a.toList ++ x :: b.toList)) ∧
      String.ofList (a.toList ++ x :: b.toList) ≠ String.ofList (a.toList ++ '\\' :: c :: b.toList) := by
  refine ⟨_, rfl, ?_, ?_⟩
  · show unquoted (String.ofList (a.toList ++ '\\' :: c :: b.toList)) = _
    unfold unquoted
    have he : c ≠ 'u' ∧ jsonEscape c = some x := by
      revert c x
      have : ∀ p ∈ Rfc.escapes, p.1 ≠ 'u' ∧ jsonEscape p.1 = some p.2 := by decide
      exact fun c x h => this (c, x) h
    have hj := jsonChars_plain b.toList [] hb
    rw [List.append_nil] at hj
    rw [String.toList_ofList, jsonChars_plain _ _ ha, jsonChars_escape c x _ he.1 he.2, hj]
    simp [jsonChars]
  · intro h
    have := congrArg (fun s : String => s.toList.length) h
    simp at this

/-- **C164 is violated for every escape with a number.** A backslash, `u` and four digits of base sixteen, small or capital, become the character with that number. -/
theorem C164_violated_every_number (f : AclFlags) (a b : String) (ha : PlainText a.toList) (hb : PlainText b.toList) (cap : Bool) (k l m n : Nat) (d e g i : Char)
    (hd : (Rfc.hexDigits cap)[k]? = some d) (he : (Rfc.hexDigits cap)[l]? = some e) (hg : (Rfc.hexDigits cap)[m]? = some g) (hi : (Rfc.hexDigits cap)[n]? = some i)
    (hv : (4096 * k + 256 * l + 16 * m + n).isValidChar) :
    ∃ q, aclFilterCmd { f with resource := some (String.ofList (a.toList ++ '\\' :: 'u' :: d :: e :: g :: i :: b.toList)) } = .ok q ∧
      q.resourceName = some (String.ofList (a.toList ++ Char.ofNat (4096 * k + 256 * l + 16 * m + n) :: b.toList)) := by
  refine ⟨_, rfl, ?_⟩
  show unquoted (String.ofList _) = _
  unfold unquoted
  have h4 : hex4 d e g i = some (4096 * k + 256 * l + 16 * m + n) := by
    unfold hex4
    rw [hexDigit_digits cap k d hd, hexDigit_digits cap l e he, hexDigit_digits cap m g hg, hexDigit_digits cap n i hi]
    show some _ = some _
    congr 1
    omega
  have hj := jsonChars_plain b.toList [] hb
  rw [List.append_nil] at hj
  rw [String.toList_ofList, jsonChars_plain _ _ ha, jsonChars_unicode d e g i _ _ h4, hj, if_pos hv]
  simp [jsonChars]

theorem hexDigit_only (c : Char) (k : Nat) (h : hexDigit c = some k) : (Rfc.hexDigits false)[k]? = some c ∨ (Rfc.hexDigits true)[k]? = some c := by
  have hc : c = Char.ofNat c.toNat := (Char.ofNat_toNat c).symm
  have le (a : Char) : a ≤ c ↔ a.toNat ≤ c.toNat := Iff.rfl
  have ge (a : Char) : c ≤ a ↔ c.toNat ≤ a.toNat := Iff.rfl
  unfold hexDigit at h
  simp only [le, ge] at h
  split at h
  · rename_i hr
    cases h
    obtain ⟨n, hn⟩ : ∃ n, n = c.toNat := ⟨_, rfl⟩
    rw [← hn] at hr hc ⊢
    rw [hc]
    have : ∀ n : Fin 103, '0'.toNat ≤ n.1 → n.1 ≤ '9'.toNat → (Rfc.hexDigits false)[n.1 - 48]? = some (Char.ofNat n.1) := by decide
    exact .inl (this ⟨n, Nat.lt_of_le_of_lt hr.2 (by decide)⟩ hr.1 hr.2)
  · split at h
    · rename_i hr
      cases h
      obtain ⟨n, hn⟩ : ∃ n, n = c.toNat := ⟨_, rfl⟩
      rw [← hn] at hr hc ⊢
      rw [hc]
      have : ∀ n : Fin 103, 'a'.toNat ≤ n.1 → n.1 ≤ 'f'.toNat → (Rfc.hexDigits false)[n.1 - 87]? = some (Char.ofNat n.1) := by decide
      exact .inl (this ⟨n, Nat.lt_of_le_of_lt hr.2 (by decide)⟩ hr.1 hr.2)
    · split at h
      · rename_i hr
        cases h
        obtain ⟨n, hn⟩ : ∃ n, n = c.toNat := ⟨_, rfl⟩
        rw [← hn] at hr hc ⊢
        rw [hc]
        have : ∀ n : Fin 103, 'A'.toNat ≤ n.1 → n.1 ≤ 'F'.toNat → (Rfc.hexDigits true)[n.1 - 55]? = some (Char.ofNat n.1) := by decide
        exact .inr (this ⟨n, Nat.lt_of_le_of_lt hr.2 (by decide)⟩ hr.1 hr.2)
      · cases h

theorem jsonEscape_only (c x : Char) (h : jsonEscape c = some x) : (c, x) ∈ Rfc.escapes := by
  unfold jsonEscape at h
  repeat' split at h
  · rename_i hc
    cases h
    rcases hc with rfl | rfl | rfl <;> decide
  all_goals
    first
    | (cases h; rename_i hc; subst hc; decide)
    | cases h

/-- a backslash and what follows it do not make an escape of JSON -/
def BadEscape (rest : List Char) : Prop :=
  (∀ c r, rest = c :: r → c ≠ 'u' ∧ ∀ x, (c, x) ∉ Rfc.escapes) ∨
  ∃ a b c d r, rest = 'u' :: a :: b :: c :: d :: r ∧ ∃ y ∈ [a, b, c, d], y ∉ Rfc.hexDigits false ∧ y ∉ Rfc.hexDigits true

theorem jsonChars_bad (rest : List Char) (h : BadEscape rest) : jsonChars ('\\' :: rest) = none := by
  have hex : ∀ y, y ∉ Rfc.hexDigits false ∧ y ∉ Rfc.hexDigits true → hexDigit y = none := by
    intro y hy
    cases hh : hexDigit y with
    | none => rfl
    | some k =>
      rcases hexDigit_only y k hh with e | e
      · exact absurd (List.mem_of_getElem? e) hy.1
      · exact absurd (List.mem_of_getElem? e) hy.2
  rw [jsonChars.eq_def]
  split
  · rename_i h'; cases h'
  · rename_i a b c d r h'
    obtain ⟨-, rfl⟩ := List.cons.inj h'
    rcases h with h | ⟨a', b', c', d', r', h1, y, hy, hn⟩
    · exact absurd rfl (h _ _ rfl).1
    · cases h1
      have : hex4 a b c d = none := by
        unfold hex4
        have := hex y hn
        simp only [List.mem_cons, List.not_mem_nil, or_false] at hy
        rcases hy with rfl | rfl | rfl | rfl
        · rw [this]; rfl
        · cases hexDigit a <;> simp [this]
        · cases hexDigit a <;> cases hexDigit b <;> simp [this]
        · cases hexDigit a <;> cases hexDigit b <;> cases hexDigit c <;> simp [this]
      rw [this]
      rfl
  · rename_i c r hx h'
    obtain ⟨-, rfl⟩ := List.cons.inj h'
    rcases h with h | ⟨a', b', c', d', r', h1, _⟩
    · have : jsonEscape c = none := by
        cases he : jsonEscape c with
        | none => rfl
        | some x => exact absurd (jsonEscape_only c x he) ((h _ _ rfl).2 x)
      rw [this]
      rfl
    · obtain ⟨rfl, rfl⟩ := List.cons.inj h1
      exact absurd rfl (hx _ _ _ _ _ rfl)
  · rfl
  · rename_i hx hy h'
    obtain ⟨rfl, rfl⟩ := List.cons.inj h'
    cases rest with
    | nil => simp_all
    | cons c r => simp_all

/-- **C164 is violated for every other backslash** in a resource: it is left out of the request, and so what is described or deleted are the ACLs of all resources. -/
theorem C164_violated_every_bad_escape (f : AclFlags) (a : String) (rest : List Char) (ha : PlainText a.toList) (hr : BadEscape rest) :
    aclFilterCmd { f with resource := some (String.ofList (a.toList ++ '\\' :: rest)) } = aclFilterCmd { f with resource := none } := by
  have : unquoted (String.ofList (a.toList ++ '\\' :: rest)) = none := by
    unfold unquoted
    rw [String.toList_ofList, jsonChars_plain _ _ ha, jsonChars_bad rest hr]
    rfl
  unfold aclFilterCmd aclFilterOf
  simp only [Option.bind_some, this, Option.bind_none]

example : BadEscape ['d'] ∧ BadEscape [] ∧ BadEscape ['u', '0', '0', 'g', '0'] :=
  ⟨.inl (fun c r h => by cases h; exact ⟨by decide, by intro x; simp [Rfc.escapes]⟩), .inl (fun c r h => by cases h),
    .inr ⟨'0', '0', 'g', '0', [], rfl, 'g', by decide, by decide, by decide⟩⟩

theorem jsonChars_quote (a b : List Char) (ha : PlainText a) : jsonChars (a ++ '"' :: b) = none := by
  rw [jsonChars_plain _ _ ha]
  have : jsonChars ('"' :: b) = none := by
    rw [jsonChars.eq_def]
    split
    · rename_i h; cases h
    · rename_i h; cases h
    · rename_i h; cases h
    · rename_i h; cases h
    · rename_i h
      cases h
      exact if_pos (.inl rfl)
  rw [this]
  rfl

/-- **C164 is violated for every quote** in a type, a pattern, an operation or a permission: the tools do not refuse it but ask with 0, which is Kafka's "unknown". -/
theorem C164_violated_every_quoted_name (f : AclFlags) (a b : String) (ha : PlainText a.toList) :
    let s := String.ofList (a.toList ++ '"' :: b.toList)
    (∃ q, aclFilterCmd { f with resourceType := s } = .ok q ∧ q.resourceType = 0) ∧ (∃ q, aclFilterCmd { f with patternType := s } = .ok q ∧ q.patternType = 0) ∧
    (∃ q, aclFilterCmd { f with operation := s } = .ok q ∧ q.operation = 0) ∧ (∃ q, aclFilterCmd { f with permissionType := s } = .ok q ∧ q.permissionType = 0) := by
  have h : ∀ parse, enumFlag parse (String.ofList (a.toList ++ '"' :: b.toList)) = 0 := by
    intro parse
    unfold enumFlag unquoted
    rw [String.toList_ofList, jsonChars_quote _ _ ha]
    rfl
  exact ⟨⟨_, rfl, h _⟩, ⟨_, rfl, h _⟩, ⟨_, rfl, h _⟩, ⟨_, rfl, h _⟩⟩

example : PlainText "a".toList ∧ ('t', '\t') ∈ Rfc.escapes ∧ unquoted "a\\tb\\u00e9" = some "a\tbé" ∧ unquoted "a\\u00C9" = some "aÉ" ∧ enumFlag parseOperation "re\"ad" = 0 := by
  refine ⟨by unfold PlainText; decide, by decide, by decide +kernel, by decide +kernel, by decide +kernel⟩

end Healer
