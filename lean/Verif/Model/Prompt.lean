import Verif.Model.GoStr

/-! # Package prompt (prompt/util.go) -/

namespace Goidc.Prompt

/-- prompt/util.go:6 -/
def pNone : GoStr := b!"none"
/-- prompt/util.go:7 -/
def pLogin : GoStr := b!"login"
/-- prompt/util.go:8 -/
def pConsent : GoStr := b!"consent"
/-- prompt/util.go:9 -/
def pSelectAccount : GoStr := b!"select_account"

/-- prompt/util.go:12-17; Go's `int` type admits values outside the constants (`other`). -/
inductive NoConsentPromptPolicy
  | forceConsent | omitConsentIfCan | other
  deriving DecidableEq

/-- prompt/util.go:19-26; Go's `int` type admits values outside the constants (`other`). -/
inductive NonePromptPolicy
  | forbidden | allowWithLoginSession | allowIfLoginHintMatched | allowIfIdTokenHintMatched | other
  deriving DecidableEq

/-- prompt/util.go:28-30 -/
def split (prompts : GoStr) : List GoStr := Goidc.split 32 prompts

/-- prompt/util.go:38-43: second loop of `IncludeAll`. -/
def includeAllLoop (existing : List GoStr) : List GoStr → Bool × GoStr
  | [] => (true, [])
  | s :: rest => if existing.contains s then includeAllLoop existing rest else (false, s)

/-- prompt/util.go:32-44 `IncludeAll` -/
def includeAll (prompts : GoStr) (target : List GoStr) : Bool × GoStr :=
  includeAllLoop (split prompts) target

/-- prompt/util.go:48-53: the loop of `Include`. -/
def includeLoop (target : GoStr) : List GoStr → Bool
  | [] => false
  | s :: rest => if s = target then true else includeLoop target rest

/-- prompt/util.go:46-54 -/
def includes (prompts target : GoStr) : Bool := includeLoop target (split prompts)

/-- prompt/util.go:60-77: the loop of `Validate` with its two flags, and the final check. -/
def validateLoop (hasNone hasOther : Bool) : List GoStr → Bool
  | [] => !(hasNone && hasOther)
  | p :: rest =>
    if p = pNone then validateLoop true hasOther rest
    else if p = pLogin then validateLoop hasNone true rest
    else if p = pConsent then validateLoop hasNone true rest
    else if p = pSelectAccount then validateLoop hasNone true rest
    else false

/-- prompt/util.go:56-78 `Validate` -/
def validate (prompts : GoStr) : Bool := validateLoop false false (split prompts)

/-- prompt/util.go:80-82 -/
def includeNone (p : GoStr) : Bool := includes p pNone
/-- prompt/util.go:84-86 -/
def includeLogin (p : GoStr) : Bool := includes p pLogin
/-- prompt/util.go:88-90 -/
def includeConsent (p : GoStr) : Bool := includes p pConsent
/-- prompt/util.go:92-94 -/
def includeSelectAccount (p : GoStr) : Bool := includes p pSelectAccount

end Goidc.Prompt
