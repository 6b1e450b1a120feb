import Verif.Spec.Challenge
import Verif.Spec.LogText
import Verif.Spec.TokenEndpoint

/-! # One header is one line, one log entry is one line -/

namespace Goidc.Spec

/-- Names and values of all headers are free of control characters: nothing can start a new header or end
the header section. -/
def OneLineHeaders (resp : HttpResp) : Prop := ∀ kv ∈ resp.headers, HeaderSafe kv.1 ∧ HeaderSafe kv.2

/-- A URL up to its fragment, and from the `#` on. -/
def beforeFragment (u : GoStr) : GoStr := u.takeWhile (· != 35)
def fromFragment (u : GoStr) : GoStr := u.dropWhile (· != 35)

/-- Go's `url.Parse` (since Go 1.12) fails for a URL with a control character before its fragment. -/
def RejectsControl (lib : Lib) : Prop := ∀ u, lib.urlParseOk u = true → HeaderSafe (beforeFragment u)

/-- Free of control characters. -/
def Plain (s : GoStr) : Prop := ∀ c ∈ s, 32 ≤ c

/-- `out` is one line of text: colours apart, no control character but the final line feed. -/
def OneLine (out : List UInt8) : Prop :=
  ∃ line text, out = line ++ [10] ∧ Uncoloured line text ∧ (∀ c ∈ line, 32 ≤ c ∨ c = 27) ∧ ∀ c ∈ text, 32 ≤ c

end Goidc.Spec
