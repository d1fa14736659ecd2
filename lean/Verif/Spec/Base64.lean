import Verif.Go.Basic

/-!
Base64 and the Basic scheme, from RFC 4648 (sections 3.2 and 4) and RFC 7617 (section 2).  Nothing here refers to the model of the code.
-/

namespace Rfc

/-- RFC 4648, table 1: the character for six bits -/
def char (v : Nat) : UInt8 :=
  if v < 26 then UInt8.ofNat (65 + v)
  else if v < 52 then UInt8.ofNat (97 + (v - 26))
  else if v < 62 then UInt8.ofNat (48 + (v - 52))
  else if v = 62 then 43 else 47

/-- RFC 4648, section 4: the encoding, with padding -/
def encode : Bytes → Bytes
  | [] => []
  | [a] => [char (a.toNat / 4), char (a.toNat % 4 * 16), 61, 61]
  | [a, b] => [char (a.toNat / 4), char (a.toNat % 4 * 16 + b.toNat / 16), char (b.toNat % 16 * 4), 61]
  | a :: b :: c :: rest =>
    char (a.toNat / 4) :: char (a.toNat % 4 * 16 + b.toNat / 16) :: char (b.toNat % 16 * 4 + c.toNat / 64) :: char (c.toNat % 64) :: encode rest

/-- `n` bits of a number, the highest first -/
def bitsOf : Nat → Nat → List Bool
  | 0, _ => []
  | n + 1, v => (v / 2 ^ n % 2 == 1) :: bitsOf n v

/-- the bits of bytes -/
def bits (m : Bytes) : List Bool := m.flatMap fun b => bitsOf 8 b.toNat

/-- the six bits a character stands for -/
def sextet (c : UInt8) : Option (List Bool) := ((List.range 64).find? fun v => char v == c).map (bitsOf 6)

/-- the bits that base64 text spells out, up to the first character that is neither of the alphabet nor a line break -/
def spelled : Bytes → List Bool
  | [] => []
  | c :: cs =>
    if c = 10 ∨ c = 13 then spelled cs
    else match sextet c with
      | some s => s ++ spelled cs
      | none => []

/-- RFC 7617: what is encoded, user and password with a colon between -/
def userPass (user pass : Bytes) : Bytes := user ++ 58 :: pass

/-- RFC 7617: the header "Basic …" -/
def basic (user pass : Bytes) : Bytes := [66, 97, 115, 105, 99, 32] ++ encode (userPass user pass)

end Rfc
