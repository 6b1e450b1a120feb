import Verif.Model.GoStr

/-!
# Encoders and decoders of Go's standard library that goidc's observable behaviour depends on

base64, URL query escaping, HTML escaping, UTF-8, JSON string quoting and `strconv.Quote`.
These model Go's standard library, not /repo; each comment names the use in /repo.
-/

namespace Goidc

/-! ## base64 -/

/-- The 64-character alphabets: `encoding/base64` encodeStd (`url = false`) and encodeURL. -/
def b64Char (url : Bool) (n : Nat) : UInt8 :=
  if n < 26 then UInt8.ofNat (65 + n)
  else if n < 52 then UInt8.ofNat (71 + n)
  else if n < 62 then UInt8.ofNat (n - 4)
  else if n = 62 then (if url then 45 else 43)
  else (if url then 95 else 47)

/-- Inverse alphabet (`decodeMap`); `none` is 0xff. -/
def b64Val (url : Bool) (c : UInt8) : Option Nat :=
  if 65 ≤ c ∧ c ≤ 90 then some (c.toNat - 65)
  else if 97 ≤ c ∧ c ≤ 122 then some (c.toNat - 71)
  else if 48 ≤ c ∧ c ≤ 57 then some (c.toNat + 4)
  else if c = (if url then 45 else 43) then some 62
  else if c = (if url then 95 else 47) then some 63
  else none

/-- Go `base64.StdEncoding/URLEncoding.EncodeToString` (with `=` padding).
Used at pkce/crypto.go:21, basic_auth/util.go:11, id_token/id_token.go:18-24,
authorization/request.go:103. -/
def b64Encode (url : Bool) : List UInt8 → GoStr
  | [] => []
  | [a] =>
    [b64Char url (a.toNat / 4), b64Char url (a.toNat % 4 * 16), 61, 61]
  | [a, b] =>
    [b64Char url (a.toNat / 4), b64Char url (a.toNat % 4 * 16 + b.toNat / 16),
     b64Char url (b.toNat % 16 * 4), 61]
  | a :: b :: c :: rest =>
    b64Char url (a.toNat / 4) :: b64Char url (a.toNat % 4 * 16 + b.toNat / 16) ::
    b64Char url (b.toNat % 16 * 4 + c.toNat / 64) :: b64Char url (c.toNat % 64) ::
    b64Encode url rest

/-- The quantum loop of Go's `Encoding.Decode` on input without CR/LF: decoded bytes so far and
whether no error occurred. -/
def b64DecodeQ (url : Bool) : GoStr → List UInt8 × Bool
  | [] => ([], true)
  | a :: b :: c :: d :: rest =>
    match b64Val url a, b64Val url b with
    | some x, some y =>
      match b64Val url c with
      | some z =>
        match b64Val url d with
        | some w =>
          let r := b64DecodeQ url rest
          (UInt8.ofNat (x * 4 + y / 16) :: UInt8.ofNat (y % 16 * 16 + z / 4) ::
            UInt8.ofNat (z % 4 * 64 + w) :: r.1, r.2)
        | none =>
          if d = 61 then
            ([UInt8.ofNat (x * 4 + y / 16), UInt8.ofNat (y % 16 * 16 + z / 4)], rest.isEmpty)
          else ([], false)
      | none =>
        if c = 61 ∧ d = 61 then ([UInt8.ofNat (x * 4 + y / 16)], rest.isEmpty) else ([], false)
    | _, _ => ([], false)
  | _ => ([], false)

/-- Go `DecodeString`: CR and LF are skipped; on error the bytes decoded so far are returned
together with a non-nil error (`false`).  Used at authorization/request.go:107 (error ignored) and by
`http.parseBasicAuth`. -/
def b64Decode (url : Bool) (s : GoStr) : List UInt8 × Bool :=
  b64DecodeQ url (s.filter (fun c => c != 10 && c != 13))

/-! ## URL query escaping -/

/-- `net/url.shouldEscape(c, encodeQueryComponent)` negated: unreserved characters. -/
def isUnreserved (c : UInt8) : Bool :=
  (97 ≤ c && c ≤ 122) || (65 ≤ c && c ≤ 90) || (48 ≤ c && c ≤ 57) ||
    c == 45 || c == 95 || c == 46 || c == 126

/-- Escape of one byte by `url.QueryEscape`. -/
def queryEscapeByte (c : UInt8) : GoStr :=
  if isUnreserved c then [c]
  else if c = 32 then [43]
  else [37, hexUpper (c.toNat / 16), hexUpper (c.toNat % 16)]

/-- Go `url.QueryEscape` (basic_auth/util.go:10 and inside `Values.Encode`). -/
def queryEscape (s : GoStr) : GoStr := s.flatMap queryEscapeByte

/-- Go `url.QueryUnescape`; `none` is the error. -/
def queryUnescape : GoStr → Option GoStr
  | [] => some []
  | c :: cs =>
    if c = 37 then
      match cs with
      | h :: l :: rest =>
        match unhex h, unhex l with
        | some a, some b => (queryUnescape rest).map (UInt8.ofNat (a * 16 + b) :: ·)
        | _, _ => none
      | _ => none
    else if c = 43 then (queryUnescape cs).map (32 :: ·)
    else (queryUnescape cs).map (c :: ·)

/-- A Go `map[string]string` (or single-valued `url.Values`) as an association list with distinct
keys, in no particular order. -/
abbrev Params := List (GoStr × GoStr)

/-- Insert a pair into a list sorted by key. -/
def insertPair (x : GoStr × GoStr) : Params → Params
  | [] => [x]
  | y :: ys => if strLe x.1 y.1 then x :: y :: ys else y :: insertPair x ys

/-- Sort by key (the `sort.Strings(keys)` of `Values.Encode`). -/
def sortPairs : Params → Params
  | [] => []
  | x :: xs => insertPair x (sortPairs xs)

/-- Go `url.Values.Encode` for single-valued keys (authorization/response.go:85,98). -/
def valuesEncode (ps : Params) : GoStr :=
  join 38 ((sortPairs ps).map fun kv => queryEscape kv.1 ++ 61 :: queryEscape kv.2)

/-- One `&`-separated piece in Go's `url.ParseQuery`: skipped when it contains `;`, is empty or has
a bad escape. -/
def parsePiece (p : GoStr) : Option (GoStr × GoStr) :=
  if p.contains 59 then none
  else if p = [] then none
  else
    let kv := cut 61 p
    match queryUnescape kv.1, queryUnescape kv.2.1 with
    | some k, some v => some (k, v)
    | _, _ => none

/-- Go `url.ParseQuery` as an ordered list of pairs: what a standard server sees when it parses the
query string or fragment goidc produced. -/
def parseQuery (q : GoStr) : Params := (split 38 q).filterMap parsePiece

/-- `net/http.hexEscapeNonASCII`, applied by `http.Redirect` to the Location value: non-ASCII bytes
become `%xx` in lower case. -/
def hexEscapeNonASCII (s : GoStr) : GoStr :=
  s.flatMap fun c => if c.toNat < 128 then [c] else [37, hexLower (c.toNat / 16), hexLower (c.toNat % 16)]

/-! ## HTML escaping -/

/-- Escape of one byte by `html.EscapeString`. -/
def htmlEscapeByte (c : UInt8) : GoStr :=
  if c = 38 then b!"&amp;"
  else if c = 39 then b!"&#39;"
  else if c = 60 then b!"&lt;"
  else if c = 62 then b!"&gt;"
  else if c = 34 then b!"&#34;"
  else [c]

/-- Go `html.EscapeString` (authorization/response.go:129). -/
def htmlEscape (s : GoStr) : GoStr := s.flatMap htmlEscapeByte

/-! ## UTF-8 -/

/-- Continuation byte in a given range. -/
def inRange (lo hi : Nat) (c : UInt8) : Bool := lo ≤ c.toNat && c.toNat ≤ hi

/-- Go `utf8.DecodeRune` at the head of a non-empty string: `some (rune, width)` for a valid encoding,
`none` for `(RuneError, 1)`. -/
def decodeRune : GoStr → Option (Nat × Nat)
  | [] => none
  | a :: rest =>
    let x := a.toNat
    if x < 0x80 then some (x, 1)
    else if x < 0xC2 then none
    else if x < 0xE0 then
      match rest with
      | b :: _ => if inRange 0x80 0xBF b then some ((x - 0xC0) * 64 + (b.toNat - 0x80), 2) else none
      | _ => none
    else if x < 0xF0 then
      match rest with
      | b :: c :: _ =>
        let lo := if x = 0xE0 then 0xA0 else 0x80
        let hi := if x = 0xED then 0x9F else 0xBF
        if inRange lo hi b && inRange 0x80 0xBF c then
          some ((x - 0xE0) * 4096 + (b.toNat - 0x80) * 64 + (c.toNat - 0x80), 3)
        else none
      | _ => none
    else if x < 0xF5 then
      match rest with
      | b :: c :: d :: _ =>
        let lo := if x = 0xF0 then 0x90 else 0x80
        let hi := if x = 0xF4 then 0x8F else 0xBF
        if inRange lo hi b && inRange 0x80 0xBF c && inRange 0x80 0xBF d then
          some ((x - 0xF0) * 262144 + (b.toNat - 0x80) * 4096 + (c.toNat - 0x80) * 64
            + (d.toNat - 0x80), 4)
        else none
      | _ => none
    else none

/-- Split a string into UTF-8 chunks: each chunk is either a valid rune (`some r`) or a single
invalid byte (`none`).  `fuel` bounds the number of chunks; the string's length suffices. -/
def runesAux : Nat → GoStr → List (Option Nat × GoStr)
  | 0, _ => []
  | _ + 1, [] => []
  | fuel + 1, s@(a :: rest) =>
    match decodeRune s with
    | some (r, w) => (some r, s.take w) :: runesAux fuel (s.drop w)
    | none => (none, [a]) :: runesAux fuel rest

/-- All chunks of a string. -/
def runes (s : GoStr) : List (Option Nat × GoStr) := runesAux s.length s

/-- Go `utf8.ValidString`. -/
def validUtf8 (s : GoStr) : Bool := (runes s).all fun c => c.1.isSome

/-! ## JSON strings -/

/-- `\u00XX` -/
def jsonU00 (n : Nat) : GoStr := b!"\\u00" ++ [hexLower (n / 16), hexLower (n % 16)]

/-- How `encoding/json` (HTML escaping on, Go < 1.22 table) writes one UTF-8 chunk. -/
def jsonChunk (c : Option Nat × GoStr) : GoStr :=
  match c.1 with
  | none => b!"\\ufffd"
  | some r =>
    if r = 34 then b!"\\\""
    else if r = 92 then b!"\\\\"
    else if r = 10 then b!"\\n"
    else if r = 13 then b!"\\r"
    else if r = 9 then b!"\\t"
    else if r < 32 ∨ r = 60 ∨ r = 62 ∨ r = 38 then jsonU00 r
    else if r = 0x2028 then b!"\\u2028"
    else if r = 0x2029 then b!"\\u2029"
    else c.2

/-- `encoding/json` string encoding, including the quotes (grant/interface.go:42,
oauth_error/errors.go:162, authorization/request.go:102). -/
def jsonString (s : GoStr) : GoStr := 34 :: ((runes s).flatMap jsonChunk ++ [34])

/-! ## strconv.Quote -/

/-- `n` as `k` lower-case hex digits. -/
def hexDigits : Nat → Nat → GoStr
  | 0, _ => []
  | k + 1, n => hexDigits k (n / 16) ++ [hexLower (n % 16)]

/-- How `strconv.Quote` writes one UTF-8 chunk.  `isPrint` is `strconv.IsPrint` for non-ASCII runes
(a Unicode table, not modelled). -/
def quoteChunk (isPrint : Nat → Bool) (c : Option Nat × GoStr) : GoStr :=
  match c.1 with
  | none =>
    match c.2 with
    | a :: _ => b!"\\x" ++ [hexLower (a.toNat / 16), hexLower (a.toNat % 16)]
    | [] => []
  | some r =>
    if r = 34 then b!"\\\""
    else if r = 92 then b!"\\\\"
    else if (32 ≤ r ∧ r < 127) ∨ (128 ≤ r ∧ isPrint r) then c.2
    else if r = 7 then b!"\\a"
    else if r = 8 then b!"\\b"
    else if r = 12 then b!"\\f"
    else if r = 10 then b!"\\n"
    else if r = 13 then b!"\\r"
    else if r = 9 then b!"\\t"
    else if r = 11 then b!"\\v"
    else if r < 128 then b!"\\x" ++ [hexLower (r / 16), hexLower (r % 16)]
    else if r < 0x10000 then b!"\\u" ++ hexDigits 4 r
    else b!"\\U" ++ hexDigits 8 r

/-- Go `strconv.Quote` (oauth_error/errors.go:173-180, resource_protector.go:96). -/
def quote (isPrint : Nat → Bool) (s : GoStr) : GoStr :=
  34 :: ((runes s).flatMap (quoteChunk isPrint) ++ [34])

end Goidc
