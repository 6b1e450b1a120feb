import Verif.Lemmas.OriginAuth
import Verif.Lemmas.TokenFail

/-! # Key calls of a whole deployment -/

namespace Goidc

open Spec AuthzEndpoint TokenEndpoint ResourceProtector

/-- What a request has done before it makes a key call. -/
inductive KeyCall : Thread → List Event → Query → Prop
  | token {cfg lib r c pre q} : Authenticated cfg lib r c pre → TokenKey cfg lib r c pre q →
      KeyCall ⟨handler cfg lib r⟩ pre q
  | authorize {policy lib r clnt f req uid info pre q} : FoundClient r clnt pre →
      clnt.canUseRedirectURI (r.formValue b!"redirect_uri") = true → Built policy r clnt f req →
      ⟨.getLoginUserId, some uid⟩ ∈ pre →
      ⟨.findAuthInfoByUserIdAndClientId uid req.clientId, (some info, none)⟩ ∈ pre →
      CompleteKey policy req (some info) pre q → KeyCall ⟨handleRequest policy lib r⟩ pre q
  | complete {policy lib r req uid pre q} : ⟨.continue_, some (some req)⟩ ∈ pre → ⟨.getLoginUserId, some uid⟩ ∈ pre →
      ContinueKey policy req uid pre q → KeyCall ⟨completeRequest policy lib r⟩ pre q

/-- Not a key call and not a screen. -/
def Query.isTame (q : Query) : Prop := q.isKey = false ∧ q.isPrompt = false

theorem tame_refuse {α : Type} {cfg : ProtectorCfg} {lib : Lib} {lv rl path ev ps e} {a : α} :
    AllQ Query.isTame ((logAt lv rl path ev ps).bind fun _ => (unauthorize cfg lib e).bind fun _ => pure a) :=
  allQ_bind (allQ_ask ⟨rfl, rfl⟩) fun _ => allQ_bind (allQ_ask ⟨rfl, rfl⟩) fun _ => allQ_pure

theorem tame_internal {α : Type} {lv rl path ev ps} {a : α} :
    AllQ Query.isTame ((logAt lv rl path ev ps).bind fun _ => internalError.bind fun _ => pure a) :=
  allQ_bind (allQ_ask ⟨rfl, rfl⟩) fun _ => allQ_bind (allQ_ask ⟨rfl, rfl⟩) fun _ => allQ_pure

theorem tame_validateInfo {cfg : ProtectorCfg} {lib : Lib} {r : Req} {rt atk} :
    AllQ Query.isTame (validateInfo cfg lib r rt atk) := by
  unfold validateInfo
  refine allQ_bind' (allQ_ask ⟨rfl, rfl⟩) fun x => ?_
  rcases x with ⟨info, _ | _ | _ | _ | n⟩
  · cases info <;> trivial
  · exact tame_internal
  · exact tame_internal
  · exact tame_refuse
  · exact tame_internal

theorem tame_validate {cfg : ProtectorCfg} {lib : Lib} {r : Req} : AllQ Query.isTame (validate cfg lib r) := by
  unfold validate
  dsimp only
  split
  · exact tame_refuse
  · refine allQ_bind' (allQ_ask ⟨rfl, rfl⟩) fun x => ?_
    rcases x with ⟨atk, _ | _ | _ | _ | n⟩
    · cases atk with
      | none => exact tame_internal
      | some atk =>
        unfold validateToken
        refine allQ_bind' (allQ_ask ⟨rfl, rfl⟩) fun now => ?_
        split
        · exact allQ_bind' (allQ_ask ⟨rfl, rfl⟩) fun _ => tame_refuse
        · exact tame_validateInfo
    · exact tame_internal
    · exact tame_internal
    · exact tame_refuse
    · exact tame_internal

theorem tame_validateWithScopes {cfg : ProtectorCfg} {lib : Lib} {r : Req} {m : List (GoStr × List GoStr)} :
    AllQ Query.isTame (validateWithScopes cfg lib r m) := by
  unfold validateWithScopes
  refine allQ_bind' tame_validate fun x => ?_
  obtain ⟨ok, r'⟩ := x
  dsimp only
  split
  · trivial
  · split
    · split
      · trivial
      · exact allQ_bind' (allQ_ask ⟨rfl, rfl⟩) fun _ => allQ_pure
    · trivial

theorem key_call {th : Thread} (he : Endpoint th) {pre post : List Event} {e : Event}
    (h : Steps th.body (pre ++ e :: post)) (hk : e.q.isKey = true) : KeyCall th pre e.q := by
  have tame : ∀ {α : Type} {p : Prog α}, AllQ Query.isTame p → Steps p (pre ++ e :: post) → False := by
    intro α p hp hs
    have := (allQ_steps hp hs e (by simp)).1
    rw [hk] at this
    cases this
  cases he with
  | token hb =>
    obtain ⟨c, h1, h2⟩ := token_key hb h hk
    exact .token h1 h2
  | authorize =>
    obtain ⟨clnt, f, req, uid, info, h1, h2, h3, h4, h5, h6⟩ := handleRequest_key h hk
    exact .authorize h1 h2 h3 h4 h5 h6
  | complete =>
    obtain ⟨req, uid, h1, h2, h3⟩ := completeRequest_key h hk
    exact .complete h1 h2 h3
  | cancel => exact (tame quiet_cancelRequest h).elim
  | protect => exact (tame tame_validate h).elim
  | protectScopes => exact (tame tame_validateWithScopes h).elim
  | idle => exact absurd (show pre ++ e :: post = [] from h) (by simp)

/-! ## Screens -/

theorem noPrompt_completeRequest {policy : Policy} {lib : Lib} {r : Req} :
    AllQ (fun q => q.isPrompt = false) (completeRequest policy lib r) := by
  refine allQ_of_runs fun t o h => ?_
  have sends : ∀ {mode req typ b t o}, SendsError lib mode req typ b t o → ∀ e ∈ t, e.q.isPrompt = false := by
    intro mode req typ b t o hs e he
    rcases hs with ⟨_, rfl, _⟩ | ⟨_, a, resp, rfl, hr, _⟩
    · cases he
    · rcases List.mem_append.1 he with he | he
      · obtain ⟨m, l, rfl⟩ := hr e he
        rfl
      · obtain rfl := List.mem_singleton.1 he; rfl
  intro e he
  cases completeRequest_runs h with
  | noRequest l => simp at he; rcases he with rfl | rfl <;> rfl
  | nilRequest => simp at he; subst he; rfl
  | noUser req l t o hs =>
    simp only [List.mem_cons] at he
    rcases he with rfl | rfl | rfl | he
    · rfl
    · rfl
    · rfl
    · exact sends hs e he
  | noAuth req uid x er t o hs =>
    simp only [List.mem_cons] at he
    rcases he with rfl | rfl | rfl | he
    · rfl
    · rfl
    · rfl
    · exact sends hs e he
  | completed req uid info t o hs _ =>
    simp only [List.mem_cons] at he
    rcases he with rfl | rfl | rfl | he
    · rfl
    · rfl
    · rfl
    · simpa using completion_noPrompt hs e he

theorem token_noScreen {cfg : TokenCfg} {lib : Lib} {r : Req} (hb : AllBuiltIn lib cfg) {pre post : List Event}
    {clnt : Client} {req : Request} {x : Bool}
    (h : Steps (handler cfg lib r) (pre ++ ⟨.showConsentScreen clnt req, x⟩ :: post)) : False := by
  obtain ⟨hf, c, t1, mid, hreg, rfl, ha, hx⟩ := phase_two h (by
    simp [PhaseOne, IsAuthCall, Query.isLog, Query.isWrite])
  have : AllQ (fun q => q.isPrompt = false) (executeGrantHandler cfg r c (r.formValue b!"grant_type") hf) := by
    unfold executeGrantHandler
    refine allQ_bind (allQ_ask rfl) fun now => allQ_bind ?_ fun res => ?_
    · cases hb _ _ hreg with
      | authorizationCode => exact Grant.allQ_authorizationCode (P := fun q => q.isPrompt = false) (fun _ => rfl) rfl (fun _ => rfl) (fun _ => rfl) (fun _ => rfl) (fun _ => rfl)
      | refreshToken => exact Grant.allQ_refreshToken (P := fun q => q.isPrompt = false) (fun _ => rfl) (fun _ => rfl) (fun _ => rfl) (fun _ _ => rfl)
      | password => exact Grant.allQ_password (P := fun q => q.isPrompt = false) (fun _ => rfl) (fun _ _ => rfl) (fun _ _ _ => rfl) (fun _ => rfl)
      | clientCredentials => exact Grant.allQ_clientCredentials (P := fun q => q.isPrompt = false) (fun _ => rfl) (fun _ _ _ => rfl) (fun _ => rfl)
      | jwt => exact Grant.allQ_jwt (P := fun q => q.isPrompt = false) (fun _ => rfl) rfl rfl (fun _ => rfl) (fun _ _ _ => rfl) (fun _ _ _ => rfl) (fun _ => rfl)
    · cases res with
      | error e => exact allQ_ask rfl
      | ok a => exact allQ_bind (allQ_ask rfl) fun _ => allQ_ask rfl
  have := allQ_steps this hx ⟨.showConsentScreen clnt req, x⟩ (by simp)
  cases this

/-- Only `HandleRequest` shows a consent screen, and only for a request it has checked. -/
theorem shown_call {th : Thread} (he : Endpoint th) {pre post : List Event} {clnt : Client} {req : Request} {x : Bool}
    (h : Steps th.body (pre ++ ⟨.showConsentScreen clnt req, x⟩ :: post)) :
    ∃ (policy : Policy) (lib : Lib) (r : Req) (f : Flow), th = ⟨handleRequest policy lib r⟩ ∧
      FoundClient r clnt pre ∧ clnt.canUseRedirectURI (r.formValue b!"redirect_uri") = true ∧
      Built policy r clnt f req := by
  have tame : ∀ {α : Type} {p : Prog α}, AllQ (fun q => q.isPrompt = false) p →
      Steps p (pre ++ ⟨.showConsentScreen clnt req, x⟩ :: post) → False := by
    intro α p hp hs
    have := allQ_steps hp hs ⟨.showConsentScreen clnt req, x⟩ (by simp)
    cases this
  cases he with
  | token hb => exact (token_noScreen hb h).elim
  | authorize =>
    obtain ⟨c, f, rq, hs⟩ := handleRequest_shown h rfl
    rcases hs.which with hw | ⟨hw, _⟩
    · cases hw
    · cases hw
      exact ⟨_, _, _, f, rfl, hs.found, hs.accepts, hs.built⟩
  | complete => exact (tame noPrompt_completeRequest h).elim
  | cancel => exact (tame (allQ_mono (fun _ h => h.2) quiet_cancelRequest) h).elim
  | protect => exact (tame (allQ_mono (fun _ h => h.2) tame_validate) h).elim
  | protectScopes => exact (tame (allQ_mono (fun _ h => h.2) tame_validateWithScopes) h).elim
  | idle => exact absurd (show pre ++ _ :: post = [] from h) (by simp)

/-! ## In an interleaving -/

variable {ths : Nat → Thread} {g : List (Nat × Event)}

theorem interleaves_split (hg : Interleaves ths g) {a b : List (Nat × Event)} {k : Nat} {e : Event}
    (hs : g = a ++ (k, e) :: b) : Steps (ths k).body (callsOf k a ++ e :: callsOf k b) := by
  have := hg k
  rw [hs, callsOf_append, callsOf_cons_self] at this
  exact this

theorem global_key (hth : ∀ i, Endpoint (ths i)) (hg : Interleaves ths g) {a b : List (Nat × Event)} {k : Nat}
    {e : Event} (hs : g = a ++ (k, e) :: b) (hk : e.q.isKey = true) : KeyCall (ths k) (callsOf k a) e.q :=
  key_call (hth k) (interleaves_split hg hs) hk

/-- Who records an authorization is entitled to. -/
theorem recorded_entitled {th : Thread} {pre : List Event} {uid : Int64} {cid sc : GoStr}
    (h : KeyCall th pre (.createOrUpdateAuthInfo uid cid sc)) : Entitled th pre uid cid sc := by
  cases h with
  | token ha hk => cases hk with
    | record _ he => exact he
  | authorize _ _ _ _ _ hk => cases hk
  | complete h1 h2 hk =>
    cases hk with
    | record => exact .consent h1 h2
    | complete info q h hk => cases hk

/-- The authorization a token is created for: shown before by the application to a request that speaks for
its user and client. -/
theorem created_speaks (hk : KeepsRecords g) {k : Nat} {pre : List Event} {th : Thread} {i : AuthInfo} {b : Bool}
    (hpre : ∀ e ∈ pre, (k, e) ∈ g) (h : KeyCall th pre (.createOAuthToken (some i) b)) :
    SpeaksFor th pre i.userId i.clientId ∧ ∃ e, (k, e) ∈ g ∧ Shows i e := by
  cases h with
  | token ha h =>
    cases h with
    | direct uid info hm =>
      obtain ⟨_, h2⟩ := hk.recorded (hpre _ hm)
      rw [h2]
      exact ⟨.client ha, _, hpre _ hm, .recorded _ _ _⟩
    | code sess info hr hm hf hc =>
      rw [hc]
      exact ⟨.client ha, _, hpre _ hf, .active _⟩
  | authorize _ _ hb hu hf h =>
    cases h with
    | token =>
      obtain ⟨h1, h2⟩ := hk.found (hpre _ hf)
      rw [h1, h2]
      refine ⟨?_, _, hpre _ hf, .found _ _⟩
      rw [hb.clientId]
      rw [hb.clientId] at hf
      exact .silent hu hf
  | complete h1 h2 h =>
    cases h with
    | complete info q hm h =>
      cases h with
      | token =>
        obtain ⟨h3, h4⟩ := hk.recorded (hpre _ hm)
        rw [h3, h4]
        exact ⟨.consent h1 h2, _, hpre _ hm, .recorded _ _ _⟩

/-- The authorization a token is refreshed for. -/
theorem refreshed_speaks {pre : List Event} {th : Thread} {i : AuthInfo} {old : OAuthToken}
    (h : KeyCall th pre (.refreshAccessToken i old)) :
    SpeaksFor th pre i.userId i.clientId ∧ ⟨.findActiveAuthInfoById old.authId, (some i, none)⟩ ∈ pre ∧
      ∃ rt, ⟨.findOAuthTokenByRefreshToken rt, (some old, none)⟩ ∈ pre := by
  cases h with
  | token ha h =>
    cases h with
    | refresh old info hm hf hc =>
      rw [hc]
      exact ⟨.client ha, hf, _, hm⟩
  | authorize _ _ _ _ _ h => cases h
  | complete _ _ h =>
    cases h with
    | complete info q _ h => cases h

/-- A session is created for a code just created, by a request of the user and client of the authorization. -/
theorem session_origin (hk : KeepsRecords g) {k : Nat} {pre : List Event} {th : Thread} {i : AuthInfo} {x : Session}
    (hpre : ∀ e ∈ pre, (k, e) ∈ g) (h : KeyCall th pre (.createAuthSession (some i) x)) :
    CodeCreated x.code th pre i.userId i.clientId x.redirectURI x.codeVerifier x.nonce ∧
      ∃ e, (k, e) ∈ g ∧ Shows i e := by
  cases h with
  | token ha h => cases h
  | authorize _ _ hb hu hf h =>
    cases h with
    | session code at_ hc =>
      obtain ⟨h1, h2⟩ := hk.found (hpre _ hf)
      refine ⟨?_, _, hpre _ hf, .found _ _⟩
      simp only [Request.toSession]
      rw [h1, h2, hb.clientId, hb.redirectURI, hb.verifier, hb.nonce]
      rw [hb.clientId] at hf
      exact .silent hu hf hc
  | complete h1 h2 h =>
    cases h with
    | complete info q hm h =>
      cases h with
      | session code at_ hc =>
        obtain ⟨h3, h4⟩ := hk.recorded (hpre _ hm)
        rw [h3, h4]
        exact ⟨.consent h1 h2 hm hc, _, hpre _ hm, .recorded _ _ _⟩

end Goidc
