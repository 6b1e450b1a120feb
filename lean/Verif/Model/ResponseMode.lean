import Verif.Model.GoStr

/-! # Package response_mode (response_mode/util.go) -/

namespace Goidc.ResponseMode

/-- response_mode/util.go:4 -/
def query : GoStr := b!"query"
/-- response_mode/util.go:5 -/
def fragment : GoStr := b!"fragment"
/-- response_mode/util.go:6 -/
def formPost : GoStr := b!"form_post"

/-- response_mode/util.go:9-11 -/
def validate (mode : GoStr) : Bool := mode == query || mode == fragment || mode == formPost

/-- response_mode/util.go:13-23 -/
def securityLevelForMode (mode : GoStr) : Int :=
  if mode = query then 0
  else if mode = fragment then 1
  else if mode = formPost then 2
  else -1

/-- response_mode/util.go:25-27 -/
def compareSecurityLevel (targetMode defaultMode : GoStr) : Bool :=
  decide (securityLevelForMode targetMode ≥ securityLevelForMode defaultMode)

end Goidc.ResponseMode
