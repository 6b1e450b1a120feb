import Verif.Model.Settings

/-! # Specification: the settings in force after a history of configuration calls -/

namespace Goidc.Spec

/-- What the last call says that says anything; `d` if none does. -/
def lastSetting {α β : Type} (says : α → Option β) (d : β) (ops : List α) : β := ((ops.filterMap says).getLast?).getD d

/-- What a call says about where client secrets are accepted. -/
def TokenOp.secrets : TokenOp → Option AcceptanceMethod
  | .acceptClientSecret m => some m
  | _ => none

/-- What a call says about client assertions. -/
def TokenOp.assertions : TokenOp → Option Bool
  | .acceptClientAssertion b => some b
  | _ => none

/-- What a call says about the `error_uri` of an error. -/
def TokenOp.uris : TokenOp → Option (OAuthErrorType → GoStr)
  | .setErrorURI u => some fun _ => u
  | .setErrorURIBuilder f => some (f.getD fun _ => [])
  | _ => none

/-- What a call says about the handler of a grant type. -/
def TokenOp.handlers (type : GoStr) : TokenOp → Option (Option GrantFunc)
  | .support t f => if t = type then some (some f) else none
  | _ => none

/-- What a call says about where access tokens are accepted. -/
def ProtectorOp.tokens : ProtectorOp → Option AcceptanceMethod
  | .acceptAccessToken m => some m
  | _ => none

/-- What a call says about the `error_uri` of an error. -/
def ProtectorOp.uris : ProtectorOp → Option (OAuthErrorType → GoStr)
  | .setErrorURI u => some fun _ => u
  | .setErrorURIBuilder f => some (f.getD fun _ => [])
  | _ => none

end Goidc.Spec
