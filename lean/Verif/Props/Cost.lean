import Verif.Lemmas.CostToken
import Verif.Props.TokenEndpoint
import Verif.Props.AuthPrompt
import Verif.Props.AuthComplete
import Verif.Props.Protector

/-! # C101: one request makes a bounded number of calls, and changes each thing at most once -/

namespace Goidc.Props

open Spec AuthzEndpoint

variable {cfg : TokenCfg} {pcfg : ProtectorCfg} {lib : Lib} {policy : Policy} {r : Req} {t : List Event}

theorem length_counts (t : List Event) : t.length = callCount .token t + callCount .authorization t + callCount .session t +
    callCount .disable t + callCount .record t + callCount .code t + callCount .password t + callCount .screen t +
    callCount .lookup t + callCount .log t + callCount .response t + callCount .internal t := by
  induction t with
  | nil => rfl
  | cons e t ih =>
    have h : ∀ k, callCount k (e :: t) = callCount k t + if kindOf e.q = k then 1 else 0 := by
      intro k
      unfold callCount
      rw [List.filter_cons]
      split <;> simp_all
    simp only [h, List.length_cons, ih]
    cases kindOf e.q <;> simp <;> omega

/-- C101, the token endpoint: at any point of serving a request, at most one token was made or refreshed, at most
one authorization created or updated, at most one code disabled, at most one password checked, and at most the
claims of two assertions recorded (the client's and the user's); no session, code or screen is ever made.  There
are at most 5 lookups and 4 log lines, and 20 calls in all. -/
theorem C101_token (hb : AllBuiltIn lib cfg) (h : Steps (TokenEndpoint.handler cfg lib r) t) :
    callCount .token t ≤ 1 ∧ callCount .authorization t ≤ 1 ∧ callCount .disable t ≤ 1 ∧ callCount .password t ≤ 1 ∧
    callCount .record t ≤ 2 ∧ callCount .session t = 0 ∧ callCount .code t = 0 ∧ callCount .screen t = 0 ∧
    callCount .lookup t ≤ 5 ∧ callCount .log t ≤ 4 ∧ t.length ≤ 20 := by
  have hc := costs_steps (costs_handler hb) h
  have h1 : _ ≤ 1 := hc .token
  have h2 : _ ≤ 1 := hc .authorization
  have h3 : _ ≤ 1 := hc .disable
  have h4 : _ ≤ 1 := hc .password
  have h5 : _ ≤ 2 := hc .record
  have h6 : _ ≤ 0 := hc .session
  have h7 : _ ≤ 0 := hc .code
  have h8 : _ ≤ 0 := hc .screen
  have h9 : _ ≤ 5 := hc .lookup
  have h10 : _ ≤ 4 := hc .log
  have h11 : _ ≤ 2 := hc .response
  have h12 : _ ≤ 3 := hc .internal
  have := length_counts t
  omega

/-- An exchange of a code makes one token and disables one session. -/
example : callCount .token (({} : Sample.World).run (TokenEndpoint.handler Sample.tokenCfg Sample.lib (Sample.post Sample.codeBody))).1 = 1 ∧
    callCount .disable (({} : Sample.World).run (TokenEndpoint.handler Sample.tokenCfg Sample.lib (Sample.post Sample.codeBody))).1 = 1 ∧
    AllBuiltIn Sample.lib Sample.tokenCfg := by
  refine ⟨by decide +kernel, by decide +kernel, sample_allBuiltIn⟩

/-- The bounds on lookups and on recorded claims are reached: by a code exchange and a JWT grant of a client that
authenticates with an assertion. -/
example : callCount .lookup (({} : Sample.World).run (TokenEndpoint.handler Sample.tokenCfg Sample.lib
      (Sample.postAssertion b!"tok" Sample.codeBody))).1 = 5 ∧
    callCount .record (({} : Sample.World).run (TokenEndpoint.handler Sample.tokenCfg Sample.lib
      (Sample.postAssertion b!"tok" Sample.jwtBody))).1 = 2 := by
  decide +kernel

/-- C101, `HandleRequest`: at most one token, one code, one session and one screen; the user's authorization, passwords,
sessions and assertions of others are never touched.  At most 10 lookups and 6 log lines, and 25 calls in all. -/
theorem C101_authorization (h : Steps (handleRequest policy lib r) t) :
    callCount .token t ≤ 1 ∧ callCount .code t ≤ 1 ∧ callCount .session t ≤ 1 ∧ callCount .screen t ≤ 1 ∧ callCount .response t ≤ 1 ∧
    callCount .authorization t = 0 ∧ callCount .disable t = 0 ∧ callCount .password t = 0 ∧ callCount .record t = 0 ∧
    callCount .lookup t ≤ 10 ∧ callCount .log t ≤ 6 ∧ t.length ≤ 25 := by
  have hc := costs_steps costs_handleRequest h
  have h1 : _ ≤ 1 := hc .token
  have h2 : _ ≤ 0 := hc .authorization
  have h3 : _ ≤ 0 := hc .disable
  have h4 : _ ≤ 0 := hc .password
  have h5 : _ ≤ 0 := hc .record
  have h6 : _ ≤ 1 := hc .session
  have h7 : _ ≤ 1 := hc .code
  have h8 : _ ≤ 1 := hc .screen
  have h9 : _ ≤ 10 := hc .lookup
  have h10 : _ ≤ 6 := hc .log
  have h11 : _ ≤ 1 := hc .response
  have h12 : _ ≤ 4 := hc .internal
  have := length_counts t
  omega

/-- A silent hybrid request makes a code, a session and a token. -/
example : callCount .token (consentedWorld.run (handleRequest .default Sample.lib hybridGet)).1 = 1 ∧
    callCount .session (consentedWorld.run (handleRequest .default Sample.lib hybridGet)).1 = 1 ∧
    callCount .code (consentedWorld.run (handleRequest .default Sample.lib hybridGet)).1 = 1 := by
  decide +kernel

/-- C101, `CompleteRequest`: the same, with one authorization created or updated, and no screen. -/
theorem C101_complete (h : Steps (completeRequest policy lib r) t) :
    callCount .authorization t ≤ 1 ∧ callCount .token t ≤ 1 ∧ callCount .code t ≤ 1 ∧ callCount .session t ≤ 1 ∧
    callCount .response t ≤ 1 ∧ callCount .screen t = 0 ∧ callCount .disable t = 0 ∧ callCount .password t = 0 ∧
    callCount .record t = 0 ∧ callCount .lookup t ≤ 5 ∧ callCount .log t ≤ 1 ∧ t.length ≤ 13 := by
  have hc := costs_steps costs_completeRequest h
  have h1 : _ ≤ 1 := hc .token
  have h2 : _ ≤ 1 := hc .authorization
  have h3 : _ ≤ 0 := hc .disable
  have h4 : _ ≤ 0 := hc .password
  have h5 : _ ≤ 0 := hc .record
  have h6 : _ ≤ 1 := hc .session
  have h7 : _ ≤ 1 := hc .code
  have h8 : _ ≤ 0 := hc .screen
  have h9 : _ ≤ 5 := hc .lookup
  have h10 : _ ≤ 1 := hc .log
  have h11 : _ ≤ 1 := hc .response
  have h12 : _ ≤ 2 := hc .internal
  have := length_counts t
  omega

/-- Completing a hybrid request makes one of each. -/
example : let w := ({ continued := some (some (continuedReq ⟨.hybrid, true, true⟩ b!"fragment")) } : Sample.World)
    (w.run (completeRequest .default Sample.lib (authGet []))).1.length = 11 ∧
    callCount .authorization (w.run (completeRequest .default Sample.lib (authGet []))).1 = 1 ∧
    callCount .token (w.run (completeRequest .default Sample.lib (authGet []))).1 = 1 := by
  decide +kernel

/-- C101, `CancelRequest` and the resource protector change nothing and make at most 4 and 7 calls. -/
theorem C101_readonly :
    (Steps (cancelRequest lib r) t → t.length ≤ 4 ∧ ∀ k, k = .lookup ∨ k = .log ∨ k = .response ∨ k = .internal ∨ callCount k t = 0) ∧
    (Steps (ResourceProtector.validate pcfg lib r) t →
      t.length ≤ 6 ∧ ∀ k, k = .lookup ∨ k = .log ∨ k = .response ∨ k = .internal ∨ callCount k t = 0) ∧
    (∀ m, Steps (ResourceProtector.validateWithScopes pcfg lib r m) t →
      t.length ≤ 7 ∧ ∀ k, k = .lookup ∨ k = .log ∨ k = .response ∨ k = .internal ∨ callCount k t = 0) := by
  have go : ∀ {a b c d : Nat}, (∀ k, callCount k t ≤ (bill (lookup := a) (log := b) (response := c) (internal := d) : Tally) k) →
      t.length ≤ a + b + c + d ∧ ∀ k, k = .lookup ∨ k = .log ∨ k = .response ∨ k = .internal ∨ callCount k t = 0 := by
    intro a b c d hc
    have h1 : _ ≤ 0 := hc .token
    have h2 : _ ≤ 0 := hc .authorization
    have h3 : _ ≤ 0 := hc .disable
    have h4 : _ ≤ 0 := hc .password
    have h5 : _ ≤ 0 := hc .record
    have h6 : _ ≤ 0 := hc .session
    have h7 : _ ≤ 0 := hc .code
    have h8 : _ ≤ 0 := hc .screen
    have h9 : _ ≤ a := hc .lookup
    have h10 : _ ≤ b := hc .log
    have h11 : _ ≤ c := hc .response
    have h12 : _ ≤ d := hc .internal
    have := length_counts t
    refine ⟨by omega, fun k => ?_⟩
    cases k <;> simp <;> omega
  refine ⟨fun h => go (costs_steps costs_cancelRequest h), fun h => go (costs_steps costs_validate h),
    fun m h => go (costs_steps costs_validateWithScopes h)⟩

/-- An admitted request costs two lookups and one look at the clock. -/
example : (({} : Sample.World).run (ResourceProtector.validate sampleProtector Sample.lib sampleBearer)).1.length = 3 := by
  decide +kernel

end Goidc.Props
