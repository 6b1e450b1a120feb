import Verif.Model.GoStr

/-! # Package flow (flow/flow.go) -/

namespace Goidc

/-- flow/flow.go:10-17.  Simplification: ints outside the four constants are not representable; they
only make `String`/`MarshalJSON` panic (flow.go:30) and `complete` return false. -/
inductive FlowType
  | authorizationCode | implicit | hybrid | directGrant
  deriving DecidableEq

/-- flow/flow.go:57-61 -/
structure Flow where
  type : FlowType
  requireAccessToken : Bool
  requireIdToken : Bool
  deriving DecidableEq

namespace Flow

/-- flow/flow.go:19-32 `FlowType.String` -/
def typeString : FlowType → GoStr
  | .authorizationCode => b!"authorization_code"
  | .implicit => b!"implicit"
  | .hybrid => b!"hybrid"
  | .directGrant => b!"direct_grant"

/-- flow/flow.go:34-36 `MarshalJSON` -/
def marshalJSON (ft : FlowType) : GoStr := b!"\"" ++ typeString ft ++ b!"\""

/-- flow/flow.go:38-55 `UnmarshalJSON`; `none` is the "unknown flow type" error. -/
def unmarshalJSON (data : GoStr) : Option FlowType :=
  if data = b!"\"authorization_code\"" then some .authorizationCode
  else if data = b!"\"implicit\"" then some .implicit
  else if data = b!"\"hybrid\"" then some .hybrid
  else if data = b!"\"direct_grant\"" then some .directGrant
  else none

/-- flow/flow.go:67-86: the switch on the sorted, re-joined response type. -/
def judgeSorted (sorted : GoStr) : Option Flow :=
  if sorted = b!"code" then some ⟨.authorizationCode, false, false⟩
  else if sorted = b!"code id_token" then some ⟨.hybrid, false, true⟩
  else if sorted = b!"code id_token token" then some ⟨.hybrid, true, true⟩
  else if sorted = b!"code token" then some ⟨.hybrid, true, false⟩
  else if sorted = b!"id_token" then some ⟨.implicit, false, true⟩
  else if sorted = b!"id_token token" then some ⟨.implicit, true, true⟩
  else if sorted = b!"token" then some ⟨.implicit, true, false⟩
  else none

/-- flow/flow.go:63-87 `JudgeByResponseType`; `none` is the error case. -/
def judgeByResponseType (responseType : GoStr) : Option Flow :=
  judgeSorted (join 32 (sortStrings (split 32 responseType)))

end Flow
end Goidc
