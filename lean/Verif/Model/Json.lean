import Verif.Model.Types

/-!
# encoding/json decoding, and authorization/request.go `Encode` / `DecodeRequest`

The parser models Go's `encoding/json` (not /repo).  Simplification: Go's limit of 10000 nested arrays
and objects is left out.
-/

namespace Goidc

/-- A parsed JSON document.  Strings and keys are kept as the raw text between their quotes, numbers as
their literal, because Go hands raw text to `UnmarshalJSON` methods (flow/flow.go:38). -/
inductive Json
  | null
  | bool (b : Bool)
  | num (raw : GoStr)
  | str (raw : GoStr)
  | arr (l : List Json)
  | obj (m : List (GoStr × Json))

namespace Json

/-- encoding/json `isSpace` -/
def isSpace (c : UInt8) : Bool := c == 32 || c == 9 || c == 10 || c == 13

/-- Skip whitespace. -/
def skipWs (s : GoStr) : GoStr := s.dropWhile isSpace

/-- encoding/json scanner, `stateInStringEsc`: characters allowed after a backslash, except `u`. -/
def shortEsc : GoStr := b!"\"\\/bfnrt"

/-- encoding/json scanner, `stateInString` and its escape states: the raw text up to the closing quote
and what follows it.  Control characters are rejected, bytes above 0x7f are not checked. -/
def scanString : GoStr → Option (GoStr × GoStr)
  | [] => none
  | 34 :: rest => some ([], rest)
  | 92 :: 117 :: a :: b :: c :: d :: rest =>
    if (unhex a).isSome && (unhex b).isSome && (unhex c).isSome && (unhex d).isSome then
      (scanString rest).map fun r => (92 :: 117 :: a :: b :: c :: d :: r.1, r.2)
    else none
  | 92 :: e :: rest =>
    if shortEsc.contains e then (scanString rest).map fun r => (92 :: e :: r.1, r.2) else none
  | c :: rest =>
    if c < 32 ∨ c = 92 then none else (scanString rest).map fun r => (c :: r.1, r.2)

/-- A decimal digit. -/
def isDigit (c : UInt8) : Bool := 48 ≤ c && c ≤ 57

/-- One or more digits. -/
def scanDigits (s : GoStr) : Option (GoStr × GoStr) :=
  if s.takeWhile isDigit = [] then none else some (s.takeWhile isDigit, s.dropWhile isDigit)

/-- encoding/json scanner, `state0`, `state1`: digits without a leading zero. -/
def scanInt : GoStr → Option (GoStr × GoStr)
  | 48 :: rest => some ([48], rest)
  | s => scanDigits s

/-- encoding/json scanner, `stateDot`, `stateDot0`. -/
def scanFrac : GoStr → Option (GoStr × GoStr)
  | 46 :: rest => (scanDigits rest).map fun r => (46 :: r.1, r.2)
  | s => some ([], s)

/-- encoding/json scanner, `stateE`, `stateESign`, `stateE0`. -/
def scanExp : GoStr → Option (GoStr × GoStr)
  | c :: rest =>
    if c = 101 ∨ c = 69 then
      match rest with
      | 43 :: r => (scanDigits r).map fun x => (c :: 43 :: x.1, x.2)
      | 45 :: r => (scanDigits r).map fun x => (c :: 45 :: x.1, x.2)
      | r => (scanDigits r).map fun x => (c :: x.1, x.2)
    else some ([], c :: rest)
  | [] => some ([], [])

/-- encoding/json scanner, `stateNeg`. -/
def scanSign : GoStr → GoStr × GoStr
  | 45 :: rest => ([45], rest)
  | s => ([], s)

/-- A number literal and what follows it. -/
def scanNumber (s : GoStr) : Option (GoStr × GoStr) :=
  match scanInt (scanSign s).2 with
  | none => none
  | some (i, s2) =>
    match scanFrac s2 with
    | none => none
    | some (f, s3) =>
      match scanExp s3 with
      | none => none
      | some (e, s4) => some ((scanSign s).1 ++ i ++ f ++ e, s4)

mutual
/-- A value at the start of the string and what follows it (encoding/json scanner and decoder).
`fuel` bounds the recursion; the length of the string plus one suffices. -/
def parseValue : Nat → GoStr → Option (Json × GoStr)
  | 0, _ => none
  | fuel + 1, s =>
    match s with
    | 34 :: r => (scanString r).map fun x => (.str x.1, x.2)
    | 91 :: r =>
      match skipWs r with
      | 93 :: r' => some (.arr [], r')
      | r' => (parseElems fuel r').map fun x => (.arr x.1, x.2)
    | 123 :: r =>
      match skipWs r with
      | 125 :: r' => some (.obj [], r')
      | r' => (parseMembers fuel r').map fun x => (.obj x.1, x.2)
    | 110 :: 117 :: 108 :: 108 :: r => some (.null, r)
    | 116 :: 114 :: 117 :: 101 :: r => some (.bool true, r)
    | 102 :: 97 :: 108 :: 115 :: 101 :: r => some (.bool false, r)
    | s => (scanNumber s).map fun x => (.num x.1, x.2)

/-- Array elements up to and including the closing bracket. -/
def parseElems : Nat → GoStr → Option (List Json × GoStr)
  | 0, _ => none
  | fuel + 1, s =>
    match parseValue fuel s with
    | none => none
    | some (v, r) =>
      match skipWs r with
      | 93 :: r' => some ([v], r')
      | 44 :: r' => (parseElems fuel (skipWs r')).map fun x => (v :: x.1, x.2)
      | _ => none

/-- Object members up to and including the closing brace. -/
def parseMembers : Nat → GoStr → Option (List (GoStr × Json) × GoStr)
  | 0, _ => none
  | fuel + 1, s =>
    match s with
    | 34 :: r =>
      match scanString r with
      | none => none
      | some (k, r1) =>
        match skipWs r1 with
        | 58 :: r2 =>
          match parseValue fuel (skipWs r2) with
          | none => none
          | some (v, r3) =>
            match skipWs r3 with
            | 125 :: r' => some ([(k, v)], r')
            | 44 :: r' => (parseMembers fuel (skipWs r')).map fun x => ((k, v) :: x.1, x.2)
            | _ => none
        | _ => none
    | _ => none
end

/-- encoding/json `checkValid` and the decoder's traversal: the whole text must be one value. -/
def parse (s : GoStr) : Option Json :=
  match parseValue (s.length + 1) (skipWs s) with
  | some (v, r) => if skipWs r = [] then some v else none
  | none => none

/-- Go `utf8.EncodeRune`. -/
def encodeRune (r : Nat) : GoStr :=
  if r < 0x80 then [UInt8.ofNat r]
  else if r < 0x800 then [UInt8.ofNat (0xC0 + r / 64), UInt8.ofNat (0x80 + r % 64)]
  else if r < 0x10000 then
    [UInt8.ofNat (0xE0 + r / 4096), UInt8.ofNat (0x80 + r / 64 % 64), UInt8.ofNat (0x80 + r % 64)]
  else [UInt8.ofNat (0xF0 + r / 262144), UInt8.ofNat (0x80 + r / 4096 % 64),
    UInt8.ofNat (0x80 + r / 64 % 64), UInt8.ofNat (0x80 + r % 64)]

/-- encoding/json `getu4`: the value of four hexadecimal digits. -/
def hex4 (a b c d : UInt8) : Nat :=
  (unhex a).getD 0 * 4096 + (unhex b).getD 0 * 256 + (unhex c).getD 0 * 16 + (unhex d).getD 0

/-- The byte meant by a short escape. -/
def escByte (e : UInt8) : UInt8 :=
  if e = 98 then 8 else if e = 102 then 12 else if e = 110 then 10 else if e = 114 then 13
  else if e = 116 then 9 else e

/-- encoding/json `unquoteBytes` without the quotes: escapes are decoded; lone surrogates and invalid
UTF-8 become U+FFFD.  `fuel` bounds the recursion; the length of the text suffices. -/
def unquoteAux : Nat → GoStr → GoStr
  | 0, _ => []
  | _ + 1, [] => []
  | n + 1, 92 :: 117 :: a :: b :: c :: d :: rest =>
    if 0xD800 ≤ hex4 a b c d ∧ hex4 a b c d < 0xE000 then
      match rest with
      | 92 :: 117 :: a' :: b' :: c' :: d' :: rest' =>
        if hex4 a b c d < 0xDC00 ∧ 0xDC00 ≤ hex4 a' b' c' d' ∧ hex4 a' b' c' d' < 0xE000 then
          encodeRune (0x10000 + (hex4 a b c d - 0xD800) * 1024 + (hex4 a' b' c' d' - 0xDC00))
            ++ unquoteAux n rest'
        else encodeRune 0xFFFD ++ unquoteAux n rest
      | _ => encodeRune 0xFFFD ++ unquoteAux n rest
    else encodeRune (hex4 a b c d) ++ unquoteAux n rest
  | n + 1, 92 :: e :: rest => escByte e :: unquoteAux n rest
  | n + 1, c :: rest =>
    match decodeRune (c :: rest) with
    | some (r, w) => encodeRune r ++ unquoteAux n ((c :: rest).drop w)
    | none => encodeRune 0xFFFD ++ unquoteAux n rest

/-- The string meant by the raw text between two quotes. -/
def unquote (raw : GoStr) : GoStr := unquoteAux raw.length raw

/-- encoding/json `bytes.EqualFold(key, name)` for a lower-case ASCII field name: Unicode simple
folding, under which U+017F folds to `s` and U+212A to `k`. -/
def foldEq (key name : GoStr) : Bool :=
  (runes key).map (fun c =>
    match c.1 with
    | none => 0xFFFD
    | some r => if 65 ≤ r ∧ r ≤ 90 then r + 32 else if r = 0x17F then 115 else if r = 0x212A then 107 else r)
  == name.map (·.toNat)

/-- Storing a JSON value into a Go `string` field: `null` and values of other types leave it alone. -/
def asString (old : GoStr) : Json → GoStr
  | .str raw => unquote raw
  | _ => old

/-- Storing a JSON value into a Go `bool` field. -/
def asBool (old : Bool) : Json → Bool
  | .bool b => b
  | _ => old

/-- Storing a JSON value into a Go `int64` field (`strconv.ParseInt` of the literal). -/
def asInt64 (old : Int64) : Json → Int64
  | .num raw => (atoi raw).getD old
  | _ => old

end Json

/-- The zero value of flow/flow.go:57-61. -/
def Flow.zero : Flow := ⟨.authorizationCode, false, false⟩

/-- Members of the `flow` object stored into a `Flow`; the flag is false when `UnmarshalJSON`
(flow/flow.go:38-55) failed, which stops the decoder. -/
def Flow.setMembers (f : Flow) : List (GoStr × Json) → Flow × Bool
  | [] => (f, true)
  | (k, v) :: m =>
    let key := Json.unquote k
    if Json.foldEq key b!"type" then
      match v with
      | .str raw =>
        match Flow.unmarshalJSON (34 :: raw ++ [34]) with
        | some t => Flow.setMembers { f with type := t } m
        | none => (f, false)
      | _ => (f, false)
    else if Json.foldEq key b!"require_access_token" then
      Flow.setMembers { f with requireAccessToken := Json.asBool f.requireAccessToken v } m
    else if Json.foldEq key b!"require_id_token" then
      Flow.setMembers { f with requireIdToken := Json.asBool f.requireIdToken v } m
    else Flow.setMembers f m

/-- A JSON value stored into the `*flow.Flow` field: `null` makes it nil, anything else allocates. -/
def Flow.setJson (f : Option Flow) : Json → Option Flow × Bool
  | .null => (none, true)
  | .obj m => let r := Flow.setMembers (f.getD Flow.zero) m; (some r.1, r.2)
  | _ => (some (f.getD Flow.zero), true)

namespace Request

/-- The zero value of authorization/request.go:57-72. -/
def zero : Request :=
  { flow := none, clientId := [], scope := [], redirectURI := [], responseMode := [], state := [],
    codeVerifier := [], nonce := [], display := [], prompt := [], maxAge := 0, uiLocale := [],
    idTokenHint := [], loginHint := [] }

/-- Members of the top-level object stored into a `Request`, in order, by the json tags of
authorization/request.go:57-72; stops where the decoder stops. -/
def setMembers (r : Request) : List (GoStr × Json) → Request
  | [] => r
  | (k, v) :: m =>
    let key := Json.unquote k
    if Json.foldEq key b!"flow" then
      let f := Flow.setJson r.flow v
      if f.2 then setMembers { r with flow := f.1 } m else { r with flow := f.1 }
    else if Json.foldEq key b!"client_id" then setMembers { r with clientId := Json.asString r.clientId v } m
    else if Json.foldEq key b!"scope" then setMembers { r with scope := Json.asString r.scope v } m
    else if Json.foldEq key b!"redirect_uri" then setMembers { r with redirectURI := Json.asString r.redirectURI v } m
    else if Json.foldEq key b!"response_mode" then setMembers { r with responseMode := Json.asString r.responseMode v } m
    else if Json.foldEq key b!"state" then setMembers { r with state := Json.asString r.state v } m
    else if Json.foldEq key b!"code_verifier" then setMembers { r with codeVerifier := Json.asString r.codeVerifier v } m
    else if Json.foldEq key b!"nonce" then setMembers { r with nonce := Json.asString r.nonce v } m
    else if Json.foldEq key b!"display" then setMembers { r with display := Json.asString r.display v } m
    else if Json.foldEq key b!"prompt" then setMembers { r with prompt := Json.asString r.prompt v } m
    else if Json.foldEq key b!"max_age" then setMembers { r with maxAge := Json.asInt64 r.maxAge v } m
    else if Json.foldEq key b!"ui_locale" then setMembers { r with uiLocale := Json.asString r.uiLocale v } m
    else if Json.foldEq key b!"id_token_hint" then setMembers { r with idTokenHint := Json.asString r.idTokenHint v } m
    else if Json.foldEq key b!"login_hint" then setMembers { r with loginHint := Json.asString r.loginHint v } m
    else setMembers r m

/-- `json.Unmarshal(data, &r)` with its error ignored (authorization/request.go:108-109). -/
def unmarshal (data : GoStr) : Request :=
  match Json.parse data with
  | some (.obj m) => setMembers zero m
  | _ => zero

/-- A JSON boolean. -/
def jsonBool (b : Bool) : GoStr := if b then b!"true" else b!"false"

/-- `"name":text` -/
def jsonField (name text : GoStr) : GoStr := jsonString name ++ 58 :: text

/-- The `flow` value as written by `json.Marshal` (flow/flow.go:34-36,57-61). -/
def flowJson : Option Flow → GoStr
  | none => b!"null"
  | some f => b!"{" ++ join 44
      [jsonField b!"type" (Flow.marshalJSON f.type),
       jsonField b!"require_access_token" (jsonBool f.requireAccessToken),
       jsonField b!"require_id_token" (jsonBool f.requireIdToken)] ++ b!"}"

/-- `json.Marshal(r)` (authorization/request.go:57-72,101). -/
def marshal (r : Request) : GoStr :=
  b!"{" ++ join 44
    [jsonField b!"flow" (flowJson r.flow),
     jsonField b!"client_id" (jsonString r.clientId),
     jsonField b!"scope" (jsonString r.scope),
     jsonField b!"redirect_uri" (jsonString r.redirectURI),
     jsonField b!"response_mode" (jsonString r.responseMode),
     jsonField b!"state" (jsonString r.state),
     jsonField b!"code_verifier" (jsonString r.codeVerifier),
     jsonField b!"nonce" (jsonString r.nonce),
     jsonField b!"display" (jsonString r.display),
     jsonField b!"prompt" (jsonString r.prompt),
     jsonField b!"max_age" (itoa r.maxAge),
     jsonField b!"ui_locale" (jsonString r.uiLocale),
     jsonField b!"id_token_hint" (jsonString r.idTokenHint),
     jsonField b!"login_hint" (jsonString r.loginHint)] ++ b!"}"

/-- authorization/request.go:100-103 `Encode` -/
def encode (r : Request) : GoStr := b64Encode true (marshal r)

/-- authorization/request.go:105-111 `DecodeRequest`: both errors are ignored, so what base64 decoded
before an error is still parsed. -/
def decode (encoded : GoStr) : Request := unmarshal (b64Decode true encoded).1

end Request
end Goidc
