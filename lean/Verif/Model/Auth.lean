import Verif.Go.Basic

/-!
The HTTP API of the command line tool: which requests are let through (command/healer/cmd/api.go).
-/

namespace Healer

/-- A request as net/http hands it over: its method and its `Authorization` header (empty if there is none). -/
structure HttpReq where
  method : Bytes
  authorization : Bytes
deriving DecidableEq, Repr

/-- `strings.SplitN(s, sep, 2)` for a separator of one byte: both parts, or nothing if the separator does not occur (then the result has one part) -/
def splitTwo (sep : UInt8) : Bytes → Option (Bytes × Bytes)
  | [] => none
  | c :: cs => if c = sep then some ([], cs) else (splitTwo sep cs).map fun p => (c :: p.1, p.2)

/-- encoding/base64, `StdEncoding.decodeMap` -/
def b64Value (c : UInt8) : Option Nat :=
  if 65 ≤ c ∧ c ≤ 90 then some (c.toNat - 65)
  else if 97 ≤ c ∧ c ≤ 122 then some (c.toNat - 97 + 26)
  else if 48 ≤ c ∧ c ≤ 57 then some (c.toNat - 48 + 52)
  else if c = 43 then some 62
  else if c = 47 then some 63
  else none

/-- encoding/base64: line breaks are skipped -/
def skipBreaks : Bytes → Bytes
  | [] => []
  | c :: cs => if c = 10 ∨ c = 13 then skipBreaks cs else c :: cs

/-- encoding/base64, `decodeQuantum`: the `i`th byte of four times six bits -/
def quantumByte (a b c d : Nat) (i : Nat) : UInt8 := UInt8.ofNat ((a * 2 ^ 18 + b * 2 ^ 12 + c * 2 ^ 6 + d) / 2 ^ (16 - 8 * i))

/-- encoding/base64, `decodeQuantum` from its padding on: the bytes of the last quantum.  The error for what comes after is not kept. -/
def lastQuantum (acc : List Nat) (cs : Bytes) : Bytes :=
  match acc with
  | [a, b] => if (skipBreaks cs).head? = some 61 then [quantumByte a b 0 0 0] else []
  | [a, b, c] => [quantumByte a b c 0 0, quantumByte a b c 0 1]
  | _ => []

/-- encoding/base64, `StdEncoding.DecodeString`, the bytes of its result only: api.go:47 drops the error.  The standard library decodes eight characters at a time where it can,
which gives the same bytes; `acc` are the values of the quantum begun. -/
def b64Decode (acc : List Nat) : Bytes → Bytes
  | [] => []
  | c :: cs =>
    match b64Value c with
    | some v =>
      match acc with
      | [x, y, z] => quantumByte x y z v 0 :: quantumByte x y z v 1 :: quantumByte x y z v 2 :: b64Decode [] cs
      | _ => b64Decode (acc ++ [v]) cs
    | none =>
      if c = 10 ∨ c = 13 then b64Decode acc cs
      else if c = 61 then lastQuantum acc cs
      else []

/-- api.go:40-54: the header is accepted -/
def credentialsOk (user pass : Bytes) (header : Bytes) : Bool :=
  match splitTwo 32 header with
  | none => false
  | some (scheme, text) =>
    -- "Basic"
    if scheme ≠ [66, 97, 115, 105, 99] then false
    else match splitTwo 58 (b64Decode [] text) with
      | none => false
      | some (u, p) => !(decide (u ≠ user) || decide (p ≠ pass))

/-- api.go:34-39: "OPTIONS", "HEAD" and "GET" -/
def readOnly (method : Bytes) : Bool :=
  decide (method = [79, 80, 84, 73, 79, 78, 83]) || decide (method = [72, 69, 65, 68]) || decide (method = [71, 69, 84])

/-- api.go:32-57 `BasicAuth`: the request goes on (`c.Next`), otherwise it is answered with 401 -/
def basicAuth (user pass : Bytes) (getAllowed : Bool) (r : HttpReq) : Bool :=
  if getAllowed && readOnly r.method then true else credentialsOk user pass r.authorization

/-- What becomes of a request: 401, the answer to a preflight request (204 with the CORS headers), or its handler, with or without the CORS headers. -/
inductive Handled where
  | unauthorized
  | preflight
  | handler (cors : Bool)
deriving DecidableEq, Repr

/-- api.go:107-121: the middleware for CORS, if asked for -/
def corsStage (cors : Bool) (r : HttpReq) : Handled :=
  if cors then (if r.method = [79, 80, 84, 73, 79, 78, 83] then .preflight else .handler true) else .handler false

/-- api.go:95-121: the middlewares set up for the flags `--auth`, `--get-allowed` and `--cors`; `none` is the error "auth format error" -/
def apiServer (auth : Bytes) (getAllowed cors : Bool) : Option (HttpReq → Handled) :=
  if auth = [] then some (corsStage cors)
  else match splitTwo 58 auth with
    | none => none
    | some (user, pass) => some fun r => if basicAuth user pass getAllowed r then corsStage cors r else .unauthorized

end Healer
