import Verif.Model.ResourceProtector
import Verif.Spec.Words
import Verif.Spec.Calls

/-! # Specification vocabulary for the resource protector -/

namespace Goidc.Spec

/-- The request presents `tok` as its bearer token under the acceptance policy `m`: the
Authorization header has at least two space-separated fields, the first is "bearer" in any case, and
`tok` is the non-empty second field; when that field is empty, `tok` is the non-empty `access_token`
parameter of the places the policy allows. -/
def BearerToken (m : AcceptanceMethod) (r : Req) (tok : GoStr) : Prop :=
  ∃ scheme second rest, Words (r.header b!"Authorization") (scheme :: second :: rest) ∧
    toLower scheme = b!"bearer" ∧ tok ≠ [] ∧
    (tok = second ∨
     second = [] ∧ (m = .fromHeaderAndPostBody ∧ tok = r.postFormValue b!"access_token" ∨
                    m = .fromAll ∧ tok = r.formValue b!"access_token"))

/-- All values of a header, under any capitalisation of its name. -/
def headerValues (r : Req) (name : GoStr) : List GoStr :=
  (r.headers.filter fun kv => toLower kv.1 == toLower name).map (·.2)

/-- The three headers the protector sets. -/
def identityHeaders : List GoStr := [b!"X-OAUTH-USER-ID", b!"X-OAUTH-CLIENT-ID", b!"X-OAUTH-SCOPE"]

/-- The headers of a request other than the identity headers. -/
def otherHeaders (r : Req) : Params :=
  r.headers.filter fun kv => ! (identityHeaders.any fun n => toLower kv.1 == toLower n)

/-- Exactly one response has been written, by the last call. -/
def WroteOne (t : List Event) (resp : HttpResp) : Prop :=
  ∃ pre, t = pre ++ [⟨.write resp, ()⟩] ∧ ∀ e ∈ pre, ∀ x, e.q ≠ .write x

/-- Nothing has been written. -/
def WroteNothing (t : List Event) : Prop := ∀ e ∈ t, ∀ x, e.q ≠ .write x

/-- The calls of a run other than logging and writing the response. -/
def lookups (t : List Event) : List Event := t.filter fun e => !e.q.isLog && !e.q.isWrite

/-- `Verdict m r calls v`: why a request is refused, in terms of what it presents and what the
application answered.  `v` is the error to report, as a code and a description; `none` means that the
application failed and nothing is to be said about the request. -/
inductive Verdict (m : AcceptanceMethod) (r : Req) : List Event → Option (OAuthErrorType × GoStr) → Prop
  /-- no bearer token in the places the policy allows -/
  | noToken : (∀ tok, ¬ BearerToken m r tok) → Verdict m r [] (some (.invalidRequest, []))
  /-- the application does not know the token -/
  | unknown {tok a} : BearerToken m r tok →
      (⟨.findOAuthTokenByAccessToken tok, a⟩ : Event).answer = .err .failed →
      Verdict m r [⟨.findOAuthTokenByAccessToken tok, a⟩] (some (.invalidToken, []))
  /-- the token lookup broke -/
  | lookupBroke {tok a} : BearerToken m r tok →
      (⟨.findOAuthTokenByAccessToken tok, a⟩ : Event).answer ≠ .err .failed →
      (⟨.findOAuthTokenByAccessToken tok, a⟩ : Event).answer ≠ .good →
      Verdict m r [⟨.findOAuthTokenByAccessToken tok, a⟩] none
  /-- the token has expired (the clock is read again for the log) -/
  | expired {tok tk now now'} : BearerToken m r tok → tk.refreshedAt + tk.accessTokenExpiresIn < now →
      Verdict m r [⟨.findOAuthTokenByAccessToken tok, (some tk, none)⟩, ⟨.now, now⟩, ⟨.now, now'⟩]
        (some (.invalidToken, b!"your access_token is expired"))
  /-- the authorization of the token is not active any more -/
  | inactive {tok tk now a} : BearerToken m r tok → ¬ tk.refreshedAt + tk.accessTokenExpiresIn < now →
      (⟨.findActiveAuthInfoById tk.authId, a⟩ : Event).answer = .err .failed →
      Verdict m r [⟨.findOAuthTokenByAccessToken tok, (some tk, none)⟩, ⟨.now, now⟩,
        ⟨.findActiveAuthInfoById tk.authId, a⟩] (some (.invalidToken, []))
  /-- the authorization lookup broke -/
  | infoBroke {tok tk now a err} : BearerToken m r tok → ¬ tk.refreshedAt + tk.accessTokenExpiresIn < now →
      (⟨.findActiveAuthInfoById tk.authId, a⟩ : Event).answer = .err err → err ≠ .failed →
      Verdict m r [⟨.findOAuthTokenByAccessToken tok, (some tk, none)⟩, ⟨.now, now⟩,
        ⟨.findActiveAuthInfoById tk.authId, a⟩] none

/-- The error URI the configuration gives for an error. -/
def errorURI (b : Option (OAuthErrorType → GoStr)) (e : OAuthErrorType) : GoStr :=
  match b with
  | some f => f e
  | none => []

end Goidc.Spec
