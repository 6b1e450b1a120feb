import Verif.Spec.Origin
import Verif.Spec.Recorded
import Verif.Lemmas.History
import Verif.Lemmas.TokenPhases
import Verif.Lemmas.GrantAnatomy
import Verif.Lemmas.Screens
import Verif.Lemmas.Continue
import Verif.Lemmas.AuthDecision
import Verif.Lemmas.Concurrent

/-! # What precedes the calls that record authorizations and create sessions and tokens -/

namespace Goidc

open Spec TokenEndpoint AuthzEndpoint

variable {cfg : TokenCfg} {lib : Lib} {r : Req} {α : Type}

/-- A call that records an authorization or an assertion, or creates or spends a session or token. -/
def Query.isKey : Query → Bool
  | .createOrUpdateAuthInfo _ _ _ | .createOAuthToken _ _ | .refreshAccessToken _ _ | .createAuthSession _ _
  | .disableSession _ | .recordAssertionClaims _ _ _ _ => true
  | _ => false

/-- `P` says something about key calls only. -/
def OnKeys (P : List Event → Query → Prop) : Prop := ∀ h q, q.isKey = false → P h q

variable {P : List Event → Query → Prop}

theorem allH_quiet {p : Prog α} {h} (hP : OnKeys P) (hq : AllQ (fun q => q.isKey = false) p) : AllH P h p :=
  allH_of_allQ hq fun _ _ => hP _ _

theorem allH_gask {q : Query} {h} (hq : P h q) : AllH P h (gask q).run := allH_xlift (allH_ask hq)

theorem allH_ite {c : Prop} [Decidable c] {p q : ExceptT OAuthError Prog α} {h} (h1 : c → AllH P h p.run)
    (h2 : ¬ c → AllH P h q.run) : AllH P h (if c then p else q).run := by
  by_cases hc : c <;> simp only [hc, if_true, if_false]
  · exact h1 hc
  · exact h2 hc

theorem allH_issue {gt c uid scp h} (hP : OnKeys P) (h1 : P h (.createOrUpdateAuthInfo uid c.id scp))
    (h2 : ∀ info, P (h ++ [⟨.createOrUpdateAuthInfo uid c.id scp, (some info, none)⟩]) (.createOAuthToken (some info) true)) :
    AllH P h (Grant.issue gt c uid scp).run := by
  unfold Grant.issue
  refine allH_xbind (allH_gask h1) fun a t ht => ?_
  rw [xok_gask] at ht
  subst ht
  refine allH_xbind (allH_quiet hP (allQ_checkVal fun _ => rfl)) fun info t ht => ?_
  obtain ⟨rfl, rfl⟩ := xok_checkVal.1 ht
  rw [List.append_nil]
  refine allH_xbind (allH_gask (h2 info)) fun _ _ _ => ?_
  exact allH_xbind (allH_quiet hP (allQ_checkVal fun _ => rfl)) fun _ _ _ => trivial

theorem allH_password {c now h} (hP : OnKeys P)
    (h1 : ∀ uid pre, (r.formValue b!"scope" = [] ∨ c.canUseScope .directGrant (r.formValue b!"scope") = true) →
      ⟨.findUserId (r.formValue b!"username") (r.formValue b!"password"), (uid, none)⟩ ∈ pre →
      P (h ++ pre) (.createOrUpdateAuthInfo uid c.id (r.formValue b!"scope")))
    (h2 : ∀ uid info pre, ⟨.createOrUpdateAuthInfo uid c.id (r.formValue b!"scope"), (some info, none)⟩ ∈ pre →
      P (h ++ pre) (.createOAuthToken (some info) true)) :
    AllH P h (Grant.password r c now).run := by
  unfold Grant.password
  refine allH_xbind (allH_quiet hP (allQ_needParam fun _ => rfl)) fun u t ht => ?_
  obtain ⟨rfl, _, rfl⟩ := xok_needParam.1 ht
  refine allH_xbind (allH_quiet hP (allQ_needParam fun _ => rfl)) fun p t ht => ?_
  obtain ⟨rfl, _, rfl⟩ := xok_needParam.1 ht
  refine allH_xbind (allH_quiet hP (allQ_checkScope fun _ => rfl)) fun _ t ht => ?_
  obtain ⟨rfl, hs⟩ := xok_checkScope.1 ht
  refine allH_xbind (allH_gask (hP _ _ rfl)) fun x t ht => ?_
  rw [xok_gask] at ht
  subst ht
  refine allH_xbind (allH_quiet hP (allQ_checkErr fun _ => rfl)) fun _ t ht => ?_
  obtain ⟨rfl, hx⟩ := xok_checkErr.1 ht
  obtain ⟨uid, x⟩ := x
  simp only at hx
  subst hx
  simp only [List.append_nil]
  refine allH_issue hP (h1 uid _ hs (by simp)) fun info => ?_
  rw [List.append_assoc]
  exact h2 uid info _ (by simp)

theorem allH_clientCredentials {c now h} (hP : OnKeys P)
    (h1 : (r.formValue b!"scope" = [] ∨ c.canUseScope .directGrant (r.formValue b!"scope") = true) →
      ¬ c.ownerUserId < 0 → P h (.createOrUpdateAuthInfo c.ownerUserId c.id (r.formValue b!"scope")))
    (h2 : ∀ uid info pre, ⟨.createOrUpdateAuthInfo uid c.id (r.formValue b!"scope"), (some info, none)⟩ ∈ pre →
      P (h ++ pre) (.createOAuthToken (some info) true)) :
    AllH P h (Grant.clientCredentials r c now).run := by
  unfold Grant.clientCredentials
  refine allH_ite (fun _ => allH_quiet hP (allQ_log_throw fun _ => rfl)) fun hneg => ?_
  refine allH_xbind (allH_quiet hP (allQ_checkScope fun _ => rfl)) fun _ t ht => ?_
  obtain ⟨rfl, hs⟩ := xok_checkScope.1 ht
  simp only [List.append_nil]
  exact allH_issue hP (h1 hs hneg) fun info => h2 c.ownerUserId info [_] (List.mem_singleton.2 rfl)

theorem numClaim_eq {tk : JwtToken} {k : GoStr} {n : Int64} : Assertion.numClaim (tk.claim k) = some n ↔ NumberClaim tk k n := by
  unfold NumberClaim Assertion.numClaim
  split <;> simp_all

theorem reported_claims {tk : JwtToken} {exp : Int64} (h : Assertion.numClaim (tk.claim b!"exp") = some exp) :
    ClaimsOf tk ((tk.claimStr b!"jti").getD []) ((Assertion.numClaim (tk.claim b!"iat")).getD (-1)) exp where
  jti := by cases h : tk.claimStr b!"jti" with
    | none => exact .inr ⟨rfl, rfl⟩
    | some x => exact .inl rfl
  iat := by cases h : Assertion.numClaim (tk.claim b!"iat") with
    | none => exact .inr ⟨fun n hn => (by rw [numClaim_eq.2 hn] at h; cases h), rfl⟩
    | some x => exact .inl (numClaim_eq.1 h)
  exp := numClaim_eq.1 h

theorem allH_checkClaims {a gt h} {tk : JwtToken} {c : Client} (hP : OnKeys P)
    (h0 : ∀ j i x, ClaimsOf tk j i x → P h (.recordAssertionClaims c.id j i x)) :
    AllH P h (Assertion.checkClaims a gt (some c) tk).run := by
  unfold Assertion.checkClaims
  split
  · exact allH_quiet hP (allQ_xbind allQ_xpure fun _ => allQ_xbind (allQ_xlift (allQ_ask rfl)) fun _ => allQ_xthrow)
  · rename_i exp he
    refine allH_xbind (allH_quiet hP allQ_xpure) fun cid t ht => ?_
    obtain ⟨rfl, rfl⟩ := xok_pure.1 ht
    rw [List.append_nil]
    refine allH_xbind (allH_gask (h0 _ _ _ (reported_claims he))) fun x t ht => allH_quiet hP ?_
    refine allQ_xbind (allQ_checkErr fun _ => rfl) fun _ => ?_
    split
    · exact allQ_log_throw fun _ => rfl
    · refine allQ_xbind (allQ_xlift (allQ_ask rfl)) fun _ => ?_
      split
      · exact allQ_log_throw fun _ => rfl
      · split
        · exact allQ_xbind (allQ_xbind allQ_xpure fun _ => allQ_xlift (allQ_ask rfl)) fun _ => allQ_xthrow
        · exact allQ_xpure

theorem allH_handle {a gt t e h} {c : Client} (hP : OnKeys P)
    (h0 : ∀ tk j i x, e = none → t = some tk → ClaimsOf tk j i x → P h (.recordAssertionClaims c.id j i x)) :
    AllH P h (Assertion.handle a gt (some c) t e).run := by
  unfold Assertion.handle
  split
  · exact allH_quiet hP (allQ_onJwtErr fun _ => rfl)
  · split
    · trivial
    · exact allH_checkClaims hP fun j i x hr => h0 _ j i x rfl rfl hr

theorem allH_jwt {c now h} (hP : OnKeys P)
    (h0 : ∀ tk wall j i x pre, r.formValue b!"assertion" ≠ [] → VerifiedAssertion lib c (r.formValue b!"assertion") tk →
      ClaimsOf tk j i x → ⟨.wallNow, wall⟩ ∈ pre → NotExpired wall (tk.claim b!"exp") → NotEarly wall (tk.claim b!"iat") →
      NotEarly wall (tk.claim b!"nbf") → P (h ++ pre) (.recordAssertionClaims c.id j i x))
    (h1 : ∀ uid sub tkn pre, (r.formValue b!"scope" = [] ∨ c.canUseScope .directGrant (r.formValue b!"scope") = true) →
      VerifiedAssertion lib c (r.formValue b!"assertion") tkn → tkn.claimStr b!"sub" = some sub →
      ⟨.findUserIdBySubject sub, (uid, none)⟩ ∈ pre →
      P (h ++ pre) (.createOrUpdateAuthInfo uid c.id (r.formValue b!"scope")))
    (h2 : ∀ uid info pre, ⟨.createOrUpdateAuthInfo uid c.id (r.formValue b!"scope"), (some info, none)⟩ ∈ pre →
      P (h ++ pre) (.createOAuthToken (some info) true)) :
    AllH P h (Grant.jwt lib r c now).run := by
  unfold Grant.jwt
  refine allH_xbind (allH_quiet hP (allQ_needParam fun _ => rfl)) fun a t ht => ?_
  obtain ⟨rfl, hne, rfl⟩ := xok_needParam.1 ht
  refine allH_xbind (allH_quiet hP (allQ_xlift (allQ_parse (P := fun q => q.isKey = false) rfl fun t => ?_))) fun p tp hp => ?_
  · unfold Grant.jwtKeyFunc; split <;> trivial
  have hver' : ∀ {tk}, p.2.1 = none → p.1 = some tk → ∃ wall, tp = [⟨.wallNow, wall⟩] ∧
      VerifiedAssertion lib c (r.formValue b!"assertion") tk ∧ NotExpired wall (tk.claim b!"exp") ∧
      NotEarly wall (tk.claim b!"iat") ∧ NotEarly wall (tk.claim b!"nbf") := by
    intro tk h1 h2
    obtain ⟨tok, ve, u⟩ := p
    simp only at h1 h2
    subst h1 h2
    obtain ⟨tk', k, t1, now, hdec, htk, hkf, htp, _, hver, he, hi, hn⟩ := parse_ok (xok_lift.1 hp)
    cases htk
    unfold Grant.jwtKeyFunc at hkf
    split at hkf
    · simp at hkf
    · rename_i k' hk'
      simp at hkf
      obtain ⟨rfl, rfl⟩ := hkf
      exact ⟨now, htp, ⟨hdec, _, hk', verifies_iff.1 hver⟩, expOk_iff.1 he, notBeforeOk_iff.1 hi, notBeforeOk_iff.1 hn⟩
  refine allH_xbind (allH_handle hP fun tk j i x h1 h2 hr => ?_) fun _ th hh => ?_
  · obtain ⟨wall, rfl, hv, he, hi, hn⟩ := hver' h1 h2
    simpa using h0 tk wall j i x [⟨.wallNow, wall⟩] hne hv hr (by simp) he hi hn
  obtain ⟨tok, ve, u⟩ := p
  obtain ⟨hve, tk, htok, _⟩ := handle_ok hh
  simp only at hve htok
  subst hve htok
  obtain ⟨_, _, hv, _⟩ := hver' rfl rfl
  dsimp only
  cases hsub : tk.claimStr b!"sub" with
  | none => exact allH_quiet hP (allQ_log_throw fun _ => rfl)
  | some sub =>
    refine allH_xbind (allH_gask (hP _ _ rfl)) fun x t ht => ?_
    rw [xok_gask] at ht
    subst ht
    refine allH_xbind (allH_quiet hP (allQ_checkErr fun _ => rfl)) fun _ t ht => ?_
    obtain ⟨rfl, hx⟩ := xok_checkErr.1 ht
    obtain ⟨uid, x⟩ := x
    simp only at hx
    subst hx
    refine allH_xbind (allH_quiet hP (allQ_checkScope fun _ => rfl)) fun _ t ht => ?_
    obtain ⟨rfl, hs⟩ := xok_checkScope.1 ht
    simp only [List.append_nil, List.append_assoc]
    refine allH_issue hP (h1 uid sub tk _ hs hv hsub (by simp)) fun info => ?_
    rw [List.append_assoc]
    exact h2 uid info _ (by simp)

theorem allH_code {c now h} (hP : OnKeys P)
    (h2 : ∀ sess info pre,
      ⟨.findAuthSessionByCode (r.formValue b!"code"), (some sess, none)⟩ ∈ pre →
      ⟨.findActiveAuthInfoById sess.authId, (some info, none)⟩ ∈ pre → info.clientId = c.id →
      P (h ++ pre) (.createOAuthToken (some info) true))
    (h3 : ∀ sess info pre,
      ⟨.findAuthSessionByCode (r.formValue b!"code"), (some sess, none)⟩ ∈ pre →
      ⟨.findActiveAuthInfoById sess.authId, (some info, none)⟩ ∈ pre → info.clientId = c.id →
      P (h ++ pre) (.disableSession sess)) :
    AllH P h (Grant.authorizationCode lib r c now).run := by
  unfold Grant.authorizationCode
  refine allH_xbind (allH_quiet hP (allQ_needParam fun _ => rfl)) fun u t ht => ?_
  obtain ⟨rfl, _, rfl⟩ := xok_needParam.1 ht
  refine allH_xbind (allH_quiet hP (allQ_needParam fun _ => rfl)) fun p t ht => ?_
  obtain ⟨rfl, _, rfl⟩ := xok_needParam.1 ht
  refine allH_xbind (allH_gask (hP _ _ rfl)) fun x t ht => ?_
  rw [xok_gask] at ht
  subst ht
  refine allH_xbind (allH_quiet hP (allQ_checkVal fun _ => rfl)) fun sess t ht => ?_
  obtain ⟨rfl, rfl⟩ := xok_checkVal.1 ht
  refine allH_xbind (allH_gask (hP _ _ rfl)) fun x t ht => ?_
  rw [xok_gask] at ht
  subst ht
  refine allH_xbind (allH_quiet hP (allQ_checkVal fun _ => rfl)) fun info t ht => ?_
  obtain ⟨rfl, rfl⟩ := xok_checkVal.1 ht
  refine allH_ite (fun _ => allH_quiet hP (allQ_log_throw fun _ => rfl)) fun hc => ?_
  refine allH_ite (fun _ => allH_quiet hP (allQ_log_throw fun _ => rfl)) fun _ => ?_
  refine allH_xbind (allH_quiet hP (allQ_checkPkce fun _ => rfl)) fun _ t ht => ?_
  simp only [List.append_nil, List.append_assoc]
  refine allH_xbind (allH_gask (h2 sess info _ (by simp) (by simp) (Decidable.byContradiction hc))) fun tk t ht => ?_
  refine allH_xbind (allH_quiet hP (allQ_checkVal fun _ => rfl)) fun tk t ht => ?_
  simp only [List.append_assoc]
  refine allH_xbind (allH_gask (h3 sess info _ (by simp) (by simp) (Decidable.byContradiction hc))) fun x t ht => ?_
  refine allH_xbind (allH_quiet hP (allQ_checkErr fun _ => rfl)) fun _ t ht => ?_
  exact allH_quiet hP (allQ_attachIdToken (P := fun q => q.isKey = false) (fun _ => rfl) rfl)

theorem allH_refresh {c now h} (hP : OnKeys P)
    (h2 : ∀ old info pre,
      ⟨.findOAuthTokenByRefreshToken (r.formValue b!"refresh_token"), (some old, none)⟩ ∈ pre →
      ⟨.findActiveAuthInfoById old.authId, (some info, none)⟩ ∈ pre → info.clientId = c.id →
      P (h ++ pre) (.refreshAccessToken info old)) :
    AllH P h (Grant.refreshToken r c now).run := by
  unfold Grant.refreshToken
  refine allH_xbind (allH_quiet hP (allQ_needParam fun _ => rfl)) fun u t ht => ?_
  obtain ⟨rfl, _, rfl⟩ := xok_needParam.1 ht
  refine allH_xbind (allH_gask (hP _ _ rfl)) fun x t ht => ?_
  rw [xok_gask] at ht
  subst ht
  refine allH_xbind (allH_quiet hP (allQ_checkVal fun _ => rfl)) fun old t ht => ?_
  obtain ⟨rfl, rfl⟩ := xok_checkVal.1 ht
  refine allH_ite (fun _ => allH_quiet hP (allQ_log_throw fun _ => rfl)) fun _ => ?_
  refine allH_xbind (allH_gask (hP _ _ rfl)) fun x t ht => ?_
  rw [xok_gask] at ht
  subst ht
  refine allH_xbind (allH_quiet hP (allQ_checkVal fun _ => rfl)) fun info t ht => ?_
  obtain ⟨rfl, rfl⟩ := xok_checkVal.1 ht
  refine allH_ite (fun _ => allH_quiet hP (allQ_log_throw fun _ => rfl)) fun hc => ?_
  refine allH_ite (fun _ => allH_quiet hP (allQ_log_throw fun _ => rfl)) fun _ => ?_
  simp only [List.append_nil, List.append_assoc]
  refine allH_xbind (allH_gask (h2 old info _ (by simp) (by simp) (Decidable.byContradiction hc))) fun tk t ht => ?_
  exact allH_xbind (allH_quiet hP (allQ_checkVal fun _ => rfl)) fun _ _ _ => trivial

/-- What the token endpoint has done before it records an authorization, creates or refreshes a token or spends a code,
for the authenticated client `c`. -/
inductive TokenKey (cfg : TokenCfg) (lib : Lib) (r : Req) (c : Client) (pre : List Event) : Query → Prop
  | claims (jti iat exp) : MadeByHolder cfg lib r c pre jti iat exp →
      TokenKey cfg lib r c pre (.recordAssertionClaims c.id jti iat exp)
  | record (uid) : Entitled ⟨handler cfg lib r⟩ pre uid c.id (r.formValue b!"scope") →
      TokenKey cfg lib r c pre (.createOrUpdateAuthInfo uid c.id (r.formValue b!"scope"))
  | direct (uid info) : ⟨.createOrUpdateAuthInfo uid c.id (r.formValue b!"scope"), (some info, none)⟩ ∈ pre →
      TokenKey cfg lib r c pre (.createOAuthToken (some info) true)
  | code (sess info) : Registered cfg r (Grant.authorizationCode lib) →
      ⟨.findAuthSessionByCode (r.formValue b!"code"), (some sess, none)⟩ ∈ pre →
      ⟨.findActiveAuthInfoById sess.authId, (some info, none)⟩ ∈ pre → info.clientId = c.id →
      TokenKey cfg lib r c pre (.createOAuthToken (some info) true)
  | spend (sess info) :
      ⟨.findAuthSessionByCode (r.formValue b!"code"), (some sess, none)⟩ ∈ pre →
      ⟨.findActiveAuthInfoById sess.authId, (some info, none)⟩ ∈ pre → info.clientId = c.id →
      TokenKey cfg lib r c pre (.disableSession sess)
  | refresh (old info) :
      ⟨.findOAuthTokenByRefreshToken (r.formValue b!"refresh_token"), (some old, none)⟩ ∈ pre →
      ⟨.findActiveAuthInfoById old.authId, (some info, none)⟩ ∈ pre → info.clientId = c.id →
      TokenKey cfg lib r c pre (.refreshAccessToken info old)

/-- The key calls of a grant. -/
theorem grant_key (hb : AllBuiltIn lib cfg) {hf : GrantFunc} {c : Client} (hreg : Registered cfg r hf) {t1 : List Event} :
    AllH (fun h q => q.isKey = true → Authenticated cfg lib r c h → TokenKey cfg lib r c h q) t1
      (executeGrantHandler cfg r c (r.formValue b!"grant_type") hf) := by
  let P : List Event → Query → Prop := fun h q => q.isKey = true → Authenticated cfg lib r c h → TokenKey cfg lib r c h q
  have hP : OnKeys P := fun h q hq hq' => by rw [hq] at hq'; cases hq'
  show AllH P _ _
  unfold executeGrantHandler
  refine allH_bind (allH_ask (hP _ _ rfl)) fun now t ht => allH_bind ?_ fun res t' ht' => ?_
  · have hdir : ∀ h uid info pre, ⟨.createOrUpdateAuthInfo uid c.id (r.formValue b!"scope"), (some info, none)⟩ ∈ pre →
        P (h ++ pre) (.createOAuthToken (some info) true) := fun h uid info pre hm _ _ =>
      .direct uid info (by simp [hm])
    cases hb _ _ hreg with
    | authorizationCode =>
      exact allH_code hP (fun sess info pre h1 h2 h3 _ _ => .code sess info hreg (by simp [h1]) (by simp [h2]) h3)
        fun sess info pre h1 h2 h3 _ _ => .spend sess info (by simp [h1]) (by simp [h2]) h3
    | refreshToken => exact allH_refresh hP fun old info pre h1 h2 h3 _ _ => .refresh old info (by simp [h1]) (by simp [h2]) h3
    | password =>
      exact allH_password hP (fun uid pre hs h1 _ hau => .record uid (.password hreg hau (by simp [h1]) hs)) (hdir _)
    | clientCredentials =>
      exact allH_clientCredentials hP (fun hs hneg _ hau => .record _ (.owner hreg hau (by
        rw [Int64.lt_iff_toInt_lt] at hneg; simpa using hneg) hs)) (hdir _)
    | jwt =>
      exact allH_jwt hP (fun tk wall j i x pre hne hv hr hw he hi hn _ _ => .claims j i x
          ⟨_, tk, wall, .inr ⟨hreg, rfl, hne⟩, hv, hr, by simp [hw], he, hi, hn⟩)
        (fun uid sub tkn pre hs h1 h2 h3 _ hau => .record uid (.assertion hreg hau h1 h2 (by simp [h3]) hs)) (hdir _)
  · cases res with
    | error e => exact allH_ask (hP _ _ rfl)
    | ok a => exact allH_bind (allH_ask (hP _ _ rfl)) fun _ _ _ => allH_ask (hP _ _ rfl)

/-- The key calls of the client's authentication: the claims of its assertion. -/
theorem assertion_key {ca : GoStr} (hacc : cfg.acceptClientAssertion = true) (hpa : PresentedAssertion r ca) :
    AllH (fun h q => q.isKey = true → ∃ c, Authenticated cfg lib r c h ∧ TokenKey cfg lib r c h q) []
      (validateClientByAssertion cfg lib (r.formValue b!"grant_type") ca) := by
  let P : List Event → Query → Prop := fun h q => q.isKey = true → ∃ c, Authenticated cfg lib r c h ∧ TokenKey cfg lib r c h q
  have hP : OnKeys P := fun h q hq hq' => by rw [hq] at hq'; cases hq'
  show AllH P _ _
  unfold validateClientByAssertion
  refine allH_bind (allH_quiet hP (allQ_parse (P := fun q => q.isKey = false) rfl fun t => ?_)) fun p tp hp => ?_
  · unfold assertionKeyFunc
    split
    · exact allQ_bind (allQ_ask rfl) fun _ => allQ_pure
    · refine allQ_bind (allQ_ask rfl) fun x => ?_
      rcases x with ⟨_ | c, _ | _ | _ | _ | n⟩
      all_goals first
        | exact allQ_bind (allQ_ask rfl) fun _ => allQ_pure
        | (dsimp only; split
           · exact allQ_bind (allQ_ask rfl) fun _ => allQ_pure
           · exact allQ_pure)
  · obtain ⟨tok, ve, cl⟩ := p
    refine allH_bind ?_ fun x t hx => ?_
    · dsimp only
      cases ve with
      | some ve =>
        refine allH_quiet hP ?_
        unfold Assertion.handle
        exact allQ_onJwtErr fun _ => rfl
      | none =>
        cases cl with
        | none =>
          refine allH_of_allQ (allQ_handle (P := fun q => q.isKey = false) (fun _ => rfl) rfl fun _ _ _ _ h => by cases h)
            fun pre q hq => hP _ _ hq
        | some c =>
          obtain ⟨tk, k, t1, now, hdec, rfl, hkf, rfl, _, hver, he, hi, hn⟩ := parse_ok hp
          have hau : Authenticated cfg lib r c t1 ∧ VerifiedAssertion lib c ca tk := by
            unfold assertionKeyFunc at hkf
            split at hkf
            · rename_i hs
              rw [Prog.bind_eq] at hkf
              rcases runs_bind.1 hkf with ⟨_, _, _, _, _, h⟩ | ⟨_, h⟩
              · cases h.2
              · cases h
            · rename_i cid hs
              rw [Prog.bind_eq, runs_bind_ask] at hkf
              obtain ⟨x, t2, rfl, hkf⟩ := hkf
              have hlog : ∀ {p : Prog Unit} {y : Jwt.KeyRes × Option Client} {t},
                  Runs (p >>= fun _ => (pure y : Prog _)) t (.ok (.key k, some c)) → y = (.key k, some c) := by
                intro p y t h
                rw [Prog.bind_eq] at h
                rcases runs_bind.1 h with ⟨_, _, _, _, _, h⟩ | ⟨_, h⟩
                · exact (Outcome.ok.inj h.2).symm
                · cases h
              rcases x with ⟨_ | c', _ | _ | _ | _ | n⟩
              all_goals dsimp only at hkf
              all_goals first
                | (have := hlog hkf; cases this; done)
                | skip
              split at hkf
              · have := hlog hkf; cases this
              · rename_i k' hk'
                obtain ⟨rfl, h⟩ := hkf
                cases h
                exact ⟨.inr ⟨hacc, ca, tk, cid, hpa, ⟨hdec, _, hk', verifies_iff.1 hver⟩, hs, by simp⟩,
                  hdec, _, hk', verifies_iff.1 hver⟩
          refine allH_handle hP fun tk' j i x _ h2 hr _ => ⟨c, authenticated_mono hau.1 fun e he => by simp [he], .claims j i x
            ⟨ca, tk, now, .inl ⟨hacc, hpa⟩, hau.2, ?_, by simp, expOk_iff.1 he, notBeforeOk_iff.1 hi, notBeforeOk_iff.1 hn⟩⟩
          cases h2
          exact hr
    · cases x with
      | error e => exact allH_bind (allH_ask (hP _ _ rfl)) fun _ _ _ => trivial
      | ok _ => dsimp only; split <;> trivial

theorem bySecret_quiet {gt cid sec b} : AllQ (fun q => q.isKey = false) (validateClientBySecret cfg r gt cid sec b) := by
  have hlf : ∀ {lv gt ev ps} {p : Prog Unit}, AllQ (fun q => q.isKey = false) p →
      AllQ (fun q => q.isKey = false) (tlog lv gt ev ps >>= fun _ => p >>= fun _ => (pure none : Prog (Option Client))) :=
    fun hp => allQ_bind (allQ_ask rfl) fun _ => allQ_bind hp fun _ => trivial
  have hfail : ∀ e, AllQ (fun q => q.isKey = false) (fail cfg e) := fun e => allQ_ask rfl
  have hinv : AllQ (fun q => q.isKey = false) (failByInvalidClientError cfg b) := by
    unfold failByInvalidClientError
    split
    · exact allQ_ask rfl
    · exact hfail _
  unfold validateClientBySecret
  refine allQ_bind (allQ_ask rfl) fun x => ?_
  rcases x with ⟨_ | c, _ | _ | _ | _ | n⟩
  all_goals first
    | exact hlf (hfail _)
    | exact hlf hinv
    | skip
  dsimp only
  split
  · exact hlf hinv
  · split
    · exact hlf (hfail _)
    · trivial

theorem token_key (hb : AllBuiltIn lib cfg) {pre post : List Event} {e : Event}
    (h : Steps (handler cfg lib r) (pre ++ e :: post)) (hk : e.q.isKey = true) :
    ∃ c, Authenticated cfg lib r c pre ∧ TokenKey cfg lib r c pre e.q := by
  let P : List Event → Query → Prop := fun h q => q.isKey = true → ∃ c, Authenticated cfg lib r c h ∧ TokenKey cfg lib r c h q
  have hP : OnKeys P := fun h q hq hq' => by rw [hq] at hq'; cases hq'
  have grant : ∀ {hf c t1}, Registered cfg r hf → Authenticated cfg lib r c t1 →
      AllH P t1 (executeGrantHandler cfg r c (r.formValue b!"grant_type") hf) := by
    intro hf c t1 hreg hau
    refine allH_mono (grant_key hb hreg) fun t q hq hk => ?_
    have := authenticated_mono (t' := t1 ++ t) hau fun e he => by simp [he]
    exact ⟨c, this, hq hk this⟩
  have : AllH P [] (handler cfg lib r) := by
    unfold handler
    split
    · exact allH_quiet hP (allQ_bind (allQ_ask rfl) fun _ => allQ_ask rfl)
    · dsimp only
      split
      · exact allH_quiet hP (allQ_bind (allQ_ask rfl) fun _ => allQ_ask rfl)
      · split
        · exact allH_quiet hP (allQ_bind (allQ_ask rfl) fun _ => allQ_ask rfl)
        · rename_i hf hreg
          split
          · rename_i cid sec b hc
            refine allH_bind (allH_quiet hP bySecret_quiet) fun x t hx => ?_
            · cases x with
              | none => trivial
              | some c =>
                obtain ⟨rfl, hms, hcg⟩ := runs_bySecret.1 hx
                exact grant hreg (.inl ⟨cid, sec, b, findClientCredential_iff.1 hc, by simp, hms⟩)
          · rename_i hc
            split
            · rename_i ca hca
              split at hca
              · rename_i hacc
                refine allH_bind (assertion_key hacc (findClientAssertion_iff.1 hca)) fun x t hx => ?_
                cases x with
                | none => trivial
                | some c =>
                  exact grant hreg (authTrace_authenticated
                    (.assertion ca (findClientCredential_none.1 hc) hacc (findClientAssertion_iff.1 hca) hx)).1
              · cases hca
            · exact allH_quiet hP (allQ_bind (allQ_ask rfl) fun _ => allQ_ask rfl)
  simpa using allH_steps this h hk

end Goidc
