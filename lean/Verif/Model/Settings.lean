import Verif.Model.TokenEndpoint
import Verif.Model.ResourceProtector
import Verif.Model.AuthorizationEndpoint

/-! # Setting up the endpoints: histories of configuration calls -/

namespace Goidc

namespace ResourceProtector

/-- resource_protector.go:33-35 `AcceptAccessToken` -/
def acceptAccessToken (cfg : ProtectorCfg) (m : AcceptanceMethod) : ProtectorCfg := { cfg with acceptance := m }
/-- resource_protector.go:45-47 `SetErrorURI` -/
def setErrorURI (cfg : ProtectorCfg) (uri : GoStr) : ProtectorCfg := { cfg with errorURIBuilder := some fun _ => uri }
/-- resource_protector.go:49-51 `SetErrorURIBulder` -/
def setErrorURIBuilder (cfg : ProtectorCfg) (f : Option (OAuthErrorType → GoStr)) : ProtectorCfg :=
  { cfg with errorURIBuilder := f }

end ResourceProtector

/-- A call that configures a token endpoint (token_endpoint.go:42-65, 78-80).  `SetLogger` and
`SetTimeBuilder` (51-57) choose where log lines go and what the clock says; both are outside the model. -/
inductive TokenOp
  | acceptClientSecret (m : AcceptanceMethod)
  | acceptClientAssertion (b : Bool)
  | setErrorURI (uri : GoStr)
  | setErrorURIBuilder (f : Option (OAuthErrorType → GoStr))
  | support (type : GoStr) (f : GrantFunc)

/-- One configuration call. -/
def TokenOp.apply (cfg : TokenCfg) : TokenOp → TokenCfg
  | .acceptClientSecret m => TokenEndpoint.acceptClientSecret cfg m
  | .acceptClientAssertion b => TokenEndpoint.setAcceptClientAssertion cfg b
  | .setErrorURI uri => TokenEndpoint.setErrorURI cfg uri
  | .setErrorURIBuilder f => TokenEndpoint.setErrorURIBuilder cfg f
  | .support t f => TokenEndpoint.support cfg t f

/-- `NewTokenEndpoint(realm)` followed by configuration calls. -/
def tokenEndpointOf (realm : GoStr) (ops : List TokenOp) : TokenCfg := ops.foldl TokenOp.apply (TokenEndpoint.new realm)

/-- A call that configures a resource protector (resource_protector.go:33-51). -/
inductive ProtectorOp
  | acceptAccessToken (m : AcceptanceMethod)
  | setErrorURI (uri : GoStr)
  | setErrorURIBuilder (f : Option (OAuthErrorType → GoStr))

/-- One configuration call. -/
def ProtectorOp.apply (cfg : ProtectorCfg) : ProtectorOp → ProtectorCfg
  | .acceptAccessToken m => ResourceProtector.acceptAccessToken cfg m
  | .setErrorURI uri => ResourceProtector.setErrorURI cfg uri
  | .setErrorURIBuilder f => ResourceProtector.setErrorURIBuilder cfg f

/-- `NewResourceProtector(realm)` followed by configuration calls. -/
def protectorOf (realm : GoStr) (ops : List ProtectorOp) : ProtectorCfg :=
  ops.foldl ProtectorOp.apply (ResourceProtector.new realm)

end Goidc
