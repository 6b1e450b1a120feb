import Verif.Model.GoStr
import Verif.Model.Http

/-! # Reading an HTML page

A small reader for HTML, following the tokenizer of the HTML standard for the constructs that occur in
the pages goidc writes: text, start tags with attributes (quoted or not) and end tags.  Comments,
doctypes and raw-text elements are not covered. -/

namespace Goidc.Spec

/-- What a reader sees. -/
inductive HtmlToken
  | text (c : UInt8)
  | start (name : List UInt8) (attrs : List (List UInt8 × List UInt8))
  | close (name : List UInt8)
  deriving DecidableEq

/-- Character references as browsers decode them, for the six references that matter here. -/
def unescape : List UInt8 → List UInt8
  | 38 :: 97 :: 109 :: 112 :: 59 :: s => 38 :: unescape s              -- &amp;
  | 38 :: 108 :: 116 :: 59 :: s => 60 :: unescape s                    -- &lt;
  | 38 :: 103 :: 116 :: 59 :: s => 62 :: unescape s                    -- &gt;
  | 38 :: 35 :: 51 :: 52 :: 59 :: s => 34 :: unescape s                -- &#34;
  | 38 :: 35 :: 51 :: 57 :: 59 :: s => 39 :: unescape s                -- &#39;
  | 38 :: 113 :: 117 :: 111 :: 116 :: 59 :: s => 34 :: unescape s      -- &quot;
  | c :: s => c :: unescape s
  | [] => []

/-- Where the reader is. -/
inductive HtmlMode
  | data
  | tagOpen
  | closeTag (name : List UInt8)
  | tagName (name : List UInt8)
  | beforeAttr (tag : List UInt8) (attrs : List (List UInt8 × List UInt8))
  | attrName (tag : List UInt8) (attrs : List (List UInt8 × List UInt8)) (name : List UInt8)
  | beforeValue (tag : List UInt8) (attrs : List (List UInt8 × List UInt8)) (name : List UInt8)
  | quoted (quote : UInt8) (tag : List UInt8) (attrs : List (List UInt8 × List UInt8)) (name val : List UInt8)
  | unquoted (tag : List UInt8) (attrs : List (List UInt8 × List UInt8)) (name val : List UInt8)
  deriving DecidableEq

/-- One byte: `<` is 60, `>` 62, `/` 47, space 32, `=` 61, `"` 34, `'` 39. -/
def HtmlMode.step : HtmlMode → UInt8 → List HtmlToken × HtmlMode
  | .data, c => if c = 60 then ([], .tagOpen) else ([.text c], .data)
  | .tagOpen, c => if c = 47 then ([], .closeTag []) else ([], .tagName [c])
  | .closeTag n, c => if c = 62 then ([.close n], .data) else ([], .closeTag (n ++ [c]))
  | .tagName n, c =>
    if c = 62 then ([.start n []], .data)
    else if c = 32 ∨ c = 47 then ([], .beforeAttr n [])
    else ([], .tagName (n ++ [c]))
  | .beforeAttr t as, c =>
    if c = 62 then ([.start t as], .data)
    else if c = 32 ∨ c = 47 then ([], .beforeAttr t as)
    else ([], .attrName t as [c])
  | .attrName t as n, c =>
    if c = 62 then ([.start t (as ++ [(n, [])])], .data)
    else if c = 32 ∨ c = 47 then ([], .beforeAttr t (as ++ [(n, [])]))
    else if c = 61 then ([], .beforeValue t as n)
    else ([], .attrName t as (n ++ [c]))
  | .beforeValue t as n, c =>
    if c = 34 ∨ c = 39 then ([], .quoted c t as n [])
    else if c = 32 then ([], .beforeValue t as n)
    else if c = 62 then ([.start t (as ++ [(n, [])])], .data)
    else ([], .unquoted t as n [c])
  | .quoted q t as n v, c =>
    if c = q then ([], .beforeAttr t (as ++ [(n, unescape v)])) else ([], .quoted q t as n (v ++ [c]))
  | .unquoted t as n v, c =>
    if c = 62 then ([.start t (as ++ [(n, unescape v)])], .data)
    else if c = 32 then ([], .beforeAttr t (as ++ [(n, unescape v)]))
    else ([], .unquoted t as n (v ++ [c]))

/-- Read on from a mode. -/
def readHtml : HtmlMode → List UInt8 → List HtmlToken × HtmlMode
  | m, [] => ([], m)
  | m, c :: s => ((m.step c).1 ++ (readHtml (m.step c).2 s).1, (readHtml (m.step c).2 s).2)

/-- The tokens of a page; `none` when it ends inside a tag. -/
def htmlTokens (page : List UInt8) : Option (List HtmlToken) :=
  match readHtml .data page with
  | (ts, .data) => some ts
  | _ => none

/-- The page that submits `fields` to `uri` by POST when loaded, and nothing else. -/
def submitPage (uri : List UInt8) (fields : List (List UInt8 × List UInt8)) : List HtmlToken :=
  [.start b!"html" [], .start b!"head" [], .start b!"title" []] ++ b!"Submit This Form".map .text ++
  [.close b!"title", .close b!"head",
   .start b!"body" [(b!"onload", b!"javascript:document.forms[0].submit()")],
   .start b!"form" [(b!"method", b!"post"), (b!"action", uri)]] ++
  fields.map (fun kv => .start b!"input" [(b!"type", b!"hidden"), (b!"name", kv.1), (b!"value", kv.2)]) ++
  [.close b!"form", .close b!"body", .close b!"html"]

end Goidc.Spec
