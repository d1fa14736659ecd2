import Verif.Model.Names

/-!
# describe-acls, delete-acls, create-acls

What the flags become in the request.  Text is a Lean `String`; arguments are taken to be valid UTF-8.
-/

namespace Healer

/-- the flags, with their defaults: describe-acls.go:90-96, delete-acls.go:90-96, create-acls.go:76-82; `none`: not given -/
structure AclFlags where
  resourceType : String := "any"
  resource : Option String := none
  patternType : String := "match"
  principal : Option String := none
  host : Option String := none
  operation : String := "any"
  permissionType : String := "any"
deriving DecidableEq, Repr

/-- `DescribeAclsRequestBody` (describe_acls_request.go:12-21), `DeleteAclsFilter` (delete_acls_request.go:8-17); `none` is nil -/
structure AclAsked where
  resourceType : Int8 := 0
  resourceName : Option String := none
  patternType : Int8 := 0
  principal : Option String := none
  host : Option String := none
  operation : Int8 := 0
  permissionType : Int8 := 0
deriving DecidableEq, Repr

/-- `AclCreation` (create_acls_request.go:14-23) -/
structure AclMade where
  resourceType : Int8 := 0
  resourceName : String := ""
  patternType : Int8 := 0
  principal : String := ""
  host : String := ""
  operation : Int8 := 0
  permissionType : Int8 := 0
deriving DecidableEq, Repr

/-- a hexadecimal digit -/
def hexDigit (c : Char) : Option Nat :=
  if '0' ≤ c ∧ c ≤ '9' then some (c.toNat - 48) else if 'a' ≤ c ∧ c ≤ 'f' then some (c.toNat - 87)
  else if 'A' ≤ c ∧ c ≤ 'F' then some (c.toNat - 55) else none

/-- four hexadecimal digits -/
def hex4 (a b c d : Char) : Option Nat := do
  let a ← hexDigit a
  let b ← hexDigit b
  let c ← hexDigit c
  let d ← hexDigit d
  some (((a * 16 + b) * 16 + c) * 16 + d)

/-- encoding/json, what a backslash and one character stand for -/
def jsonEscape (c : Char) : Option Char :=
  if c = '"' ∨ c = '\\' ∨ c = '/' then some c
  else if c = 'b' then some (Char.ofNat 8) else if c = 'f' then some (Char.ofNat 12) else if c = 'n' then some '\n'
  else if c = 'r' then some '\r' else if c = 't' then some '\t' else none

/-- encoding/json: what stands between the quotes of a string.  A quote ends it too early, control characters are not allowed.  `\u` with half of a surrogate pair gives U+FFFD; that two
such escapes can make one character is left out. -/
def jsonChars : List Char → Option (List Char)
  | [] => some []
  | '\\' :: 'u' :: a :: b :: c :: d :: rest => do
    let n ← hex4 a b c d
    let r ← jsonChars rest
    some ((if n.isValidChar then Char.ofNat n else Char.ofNat 0xFFFD) :: r)
  | '\\' :: c :: rest => do
    let x ← jsonEscape c
    let r ← jsonChars rest
    some (x :: r)
  | ['\\'] => none
  | c :: rest =>
    if c = '"' ∨ c.toNat < 32 then none
    else (jsonChars rest).map (c :: ·)

/-- `json.Unmarshal` of the flag between quotes, into a string; `none`: it fails, and nothing is written -/
def unquoted (s : String) : Option String := (jsonChars s.toList).map String.ofList

/-- `json.Unmarshal` of the flag between quotes, into an enumeration (through `UnmarshalText`); the error is dropped, and the value stays 0 -/
def enumFlag (parse : String → Except Err Int8) (s : String) : Int8 :=
  match unquoted s with
  | none => 0
  | some t =>
    match parse t with
    | .ok v => v
    | .error _ => 0

/-- describe-acls.go:28-71, delete-acls.go:28-71 -/
def aclFilterOf (f : AclFlags) : AclAsked where
  resourceType := enumFlag parseResourceType f.resourceType
  resourceName := f.resource.bind unquoted
  patternType := enumFlag parsePatternType f.patternType
  principal := f.principal
  host := f.host
  operation := enumFlag parseOperation f.operation
  permissionType := enumFlag parsePermission f.permissionType

/-- describe-acls.go:13-86, delete-acls.go:13-86: what is asked for, or the error with which the tool ends before it asks.  With the flags declared there is none. -/
def aclFilterCmd (f : AclFlags) : Except Err AclAsked := .ok (aclFilterOf f)

/-- create-acls.go:28-57 -/
def aclCreationOf (f : AclFlags) : AclMade where
  resourceType := enumFlag parseResourceType f.resourceType
  resourceName := (f.resource.bind unquoted).getD ""
  patternType := enumFlag parsePatternType f.patternType
  principal := f.principal.getD ""
  host := f.host.getD ""
  operation := enumFlag parseOperation f.operation
  permissionType := enumFlag parsePermission f.permissionType

/-- create-acls.go:13-72: what is asked for, or the error with which the tool ends before it asks -/
def aclCreationCmd (f : AclFlags) : Except Err AclMade := .ok (aclCreationOf f)

end Healer
