import Verif.Lemmas.OriginSample
import Verif.Spec.EndToEnd

/-! # A sample deployment: consent, code, token, refreshed token -/

namespace Goidc.Sample

open Spec TokenEndpoint AuthzEndpoint Props

/-- The client refreshes the token it was given. -/
def rtBody : Params := [(b!"grant_type", b!"refresh_token"), (b!"refresh_token", b!"REFRESH_TOKEN_0")]

/-- The consent screen is shown, the user accepts, the client redeems the code and then refreshes. -/
def chainThreads : Nat → Prog Unit
  | 0 => closed (handleRequest Policy.default lib consentReq) id
  | 1 => closed (completeRequest Policy.default lib consentReq) id
  | 2 => handler tokenCfg lib (post codeBody)
  | 3 => handler tokenCfg lib (post rtBody)
  | _ => .ret ()

/-- The same requests. -/
def chainEndpoints : Nat → Thread
  | 0 => ⟨handleRequest Policy.default lib consentReq⟩
  | 1 => ⟨completeRequest Policy.default lib consentReq⟩
  | 2 => ⟨handler tokenCfg lib (post codeBody)⟩
  | 3 => ⟨handler tokenCfg lib (post rtBody)⟩
  | _ => ⟨(.ret () : Prog Unit)⟩

def chainRun : List (Nat × Event) × (StoreState × Option Request) := schedule webDet webSchedule chainThreads (webStart, none)

/-- The calls of the sample deployment. -/
def chainCalls : List (Nat × Event) := chainRun.1

theorem chain_interleaves : Interleaves chainEndpoints chainCalls := by
  intro i
  have h := schedule_interleaves webDet webSchedule chainThreads (webStart, none) i
  match i with
  | 0 => exact closed_steps h
  | 1 => exact closed_steps h
  | 2 => exact h
  | 3 => exact h
  | _ + 4 => exact h

theorem chain_store : StoreRun webStart (chainCalls.map (·.2)) chainRun.2.1 :=
  web_store (schedule_chain webDet_step webSchedule chainThreads (webStart, none))

/-- Requests 2 and 3 run to their ends. -/
theorem chain_runs : Runs (handler tokenCfg lib (post codeBody)) (callsOf 2 chainCalls) (.ok ()) ∧
    Runs (handler tokenCfg lib (post rtBody)) (callsOf 3 chainCalls) (.ok ()) := by
  have h2 := remaining_runs webDet webSchedule chainThreads (webStart, none) 2 (over_runs (by decide +kernel))
  have h3 := remaining_runs webDet webSchedule chainThreads (webStart, none) 3 (over_runs (by decide +kernel))
  rw [List.append_nil] at h2 h3
  exact ⟨h2, h3⟩

/-- A call that spends the code. -/
def spends (code : GoStr) : Event → Bool
  | ⟨.disableSession x, _⟩ => x.code == code
  | _ => false

theorem onlySpentBy_of {g : List (Nat × Event)} {code : GoStr} {j : Nat} (h : g.all (fun x => !spends code x.2 || x.1 == j) = true) :
    OnlySpentBy g code j := by
  intro k x rr hm hc
  have := List.all_eq_true.1 h _ hm
  simp [spends, hc] at this
  exact this

/-- A call that authorizes the user for the client with another scope. -/
def reauthorizes (u : Int64) (c sc : GoStr) : Event → Bool
  | ⟨.createOrUpdateAuthInfo u' c' sc', _⟩ => u' == u && c' == c && sc' != sc
  | _ => false

theorem onlyAuthorized_of {g : List (Nat × Event)} {u : Int64} {c sc : GoStr}
    (h : g.all (fun x => !reauthorizes u c sc x.2) = true) : OnlyAuthorized g u c sc := by
  intro k sc' rr hm
  have := List.all_eq_true.1 h _ hm
  simpa [reauthorizes] using this

/-- A new token of the authorization for another scope. -/
def tokenOther (id : Int64) (sc : GoStr) : Event → Bool
  | ⟨.createOAuthToken (some i) _, _⟩ => i.id == id && i.scope != sc
  | _ => false

theorem onlyTokens_of {g : List (Nat × Event)} {id : Int64} {sc : GoStr} (h : g.all (fun x => !tokenOther id sc x.2) = true) :
    OnlyTokens g id sc := by
  intro k info b rr hm hid
  have := List.all_eq_true.1 h _ hm
  simpa [tokenOther, hid] using this

/-- A refreshed token of the authorization. -/
def refreshesIt (id : Int64) : Event → Bool
  | ⟨.refreshAccessToken _ _, (some tk, none)⟩ => tk.authId == id
  | _ => false

theorem onlyRefreshedBy_of {g : List (Nat × Event)} {id : Int64} {i j : Nat}
    (h : g.all (fun x => !refreshesIt id x.2 || (x.1 == i || x.1 == j)) = true) : OnlyRefreshedBy g id i j := by
  intro k info old tk hm hid
  have := List.all_eq_true.1 h _ hm
  simp [refreshesIt, hid] at this
  exact this

/-- The times at which the refresh tokens found expire. -/
def expiries (t : List Event) : List Int64 := t.filterMap fun
  | ⟨.findOAuthTokenByRefreshToken _, (some old, none)⟩ => some (old.createdAt + old.refreshTokenExpiresIn)
  | _ => none

/-- The times seen. -/
def times (t : List Event) : List Int64 := t.filterMap fun
  | ⟨.now, n⟩ => some n
  | _ => none

theorem refreshNotExpired_of {t : List Event} {k : GoStr} (h : (expiries t).all (fun e => (times t).all fun n => !(decide (e < n))) = true) :
    RefreshNotExpired t k := by
  intro old now h1 h2
  have h3 : old.createdAt + old.refreshTokenExpiresIn ∈ expiries t := List.mem_filterMap.2 ⟨_, h1, rfl⟩
  have h4 : now ∈ times t := List.mem_filterMap.2 ⟨_, h2, rfl⟩
  have := List.all_eq_true.1 (List.all_eq_true.1 h _ h3) _ h4
  simpa using this

theorem notRefreshed_of {g : List (Nat × Event)} {a : GoStr}
    (h : g.all (fun x => match x.2 with
      | ⟨.refreshAccessToken _ old, _⟩ => old.accessToken != a
      | _ => true) = true) : NotRefreshed g a := by
  intro k info old rr hm
  have := List.all_eq_true.1 h _ hm
  simpa using this

/-- The times at which the access tokens found expire. -/
def accessExpiries (t : List Event) : List Int64 := t.filterMap fun
  | ⟨.findOAuthTokenByAccessToken _, (some tk, none)⟩ => some (tk.refreshedAt + tk.accessTokenExpiresIn)
  | _ => none

theorem accessNotExpired_of {t : List Event} {k : GoStr}
    (h : (accessExpiries t).all (fun e => (times t).all fun n => !(decide (e < n))) = true) : AccessNotExpired t k := by
  intro tk now h1 h2
  have h3 : tk.refreshedAt + tk.accessTokenExpiresIn ∈ accessExpiries t := List.mem_filterMap.2 ⟨_, h1, rfl⟩
  have h4 : now ∈ times t := List.mem_filterMap.2 ⟨_, h2, rfl⟩
  have := List.all_eq_true.1 (List.all_eq_true.1 h _ h3) _ h4
  simpa using this

end Goidc.Sample
