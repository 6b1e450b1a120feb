import Verif.Lemmas.SimE
import Verif.Lemmas.TokenAll
import Verif.Lemmas.TokenPhases
import Verif.Props.TokenEndpoint
import Verif.Props.AuthComplete
import Verif.Props.Protector

/-! # C106: tokens and codes that are issued never reach the log -/

namespace Goidc.Props

open Spec TokenEndpoint

variable {lib : Lib} {r : Req} {policy : Policy} {cfg : TokenCfg} {t : List Event} {o : Outcome Unit} {s : GoStr → GoStr}

/-! ## Calls that have nothing to do with issued strings -/

theorem renamed_refl {q : Query} (h : q.issues = false) (x : q.Resp) : Renamed s ⟨q, x⟩ ⟨q, x⟩ := by
  cases q <;> first
    | rfl
    | exact ⟨_, rfl, rfl⟩
    | exact ⟨_, _, rfl⟩
    | simp [Query.issues] at h

/-- What stays the same. -/
def Still (s : GoStr → GoStr) (q : Query) : Prop := ∀ x, Renamed s ⟨q, x⟩ ⟨q, x⟩

theorem still_tok {gt : GoStr} : TokQ (Still s) gt := ⟨fun _ _ _ => renamed_refl rfl, fun _ _ h => renamed_refl h⟩

theorem simE_write {x x' : HttpResp} (h : x'.status = x.status) : SimE (Renamed s) Eq (respond x) (respond x') :=
  fun _ => ⟨_, _, (), rfl, ⟨_, rfl, h⟩, (), rfl, rfl⟩

theorem simE_logWrite {lv gt ev ps} {x x' : HttpResp} (h : x'.status = x.status) :
    SimE (Renamed s) Eq (do tlog lv gt ev ps; respond x) (do tlog lv gt ev ps; respond x') :=
  simE_same (p := tlog lv gt ev ps) still_tok.tlog fun _ => simE_write h

/-- Nothing but output. -/
theorem still_output {q : Query} (h : q.isOutput = true) : Still s q := renamed_refl (by cases q <;> first | rfl | simp [Query.isOutput] at h)

/-! ## The grants -/

/-- A token and its other name. -/
def TokRel (s : GoStr → GoStr) (a b : Option OAuthToken × Option ErrType) : Prop := b = (a.1.map (renamedToken s), a.2)

theorem simE_create {i b} : SimE (Renamed s) (ExceptRel (ε := OAuthError) (TokRel s)) (gask (.createOAuthToken i b)).run
    (gask (.createOAuthToken i b)).run :=
  fun x => ⟨.createOAuthToken i b, _, (x.1.map (renamedToken s), x.2), rfl, rfl, _, rfl, rfl⟩

theorem simE_found {k} : SimE (Renamed s) (ExceptRel (ε := OAuthError) (TokRel s)) (gask (.findOAuthTokenByRefreshToken k)).run
    (gask (.findOAuthTokenByRefreshToken k)).run :=
  fun x => ⟨.findOAuthTokenByRefreshToken k, _, (x.1.map (renamedToken s), x.2), rfl, rfl, _, rfl, rfl⟩

theorem simE_refreshed {i old} : SimE (Renamed s) (ExceptRel (ε := OAuthError) (TokRel s)) (gask (.refreshAccessToken i old)).run
    (gask (.refreshAccessToken i (renamedToken s old))).run :=
  fun x => ⟨.refreshAccessToken i (renamedToken s old), _, (x.1.map (renamedToken s), x.2), rfl, rfl, _, rfl, rfl⟩

theorem simE_logThrow {α β : Type} {R : α → β → Prop} {lv gt ev ps} {e : OAuthError} :
    SimE (Renamed s) (ExceptRel R) (do glog lv gt ev ps; throw e : GrantM α).run (do glog lv gt ev ps; throw e : GrantM β).run :=
  simE_xsame still_tok.glog fun _ => ⟨_, rfl, rfl⟩

theorem simE_onErr {α β : Type} {R : α → β → Prop} {gt : GoStr} {si : Site} {e : ErrType} :
    SimE (Renamed s) (ExceptRel R) (onErr gt si e : GrantM α).run (onErr gt si e : GrantM β).run := by
  cases e <;> exact simE_logThrow

theorem simE_checkVal {gt : GoStr} {si : Site} {v v' : Option OAuthToken × Option ErrType} (h : TokRel s v v') :
    SimE (Renamed s) (ExceptRel fun a b => b = renamedToken s a) (checkVal gt si v).run (checkVal gt si v').run := by
  obtain ⟨v, e⟩ := v
  unfold TokRel at h
  subst h
  cases v <;> cases e
  · exact simE_logThrow
  · exact simE_onErr
  · exact ⟨_, rfl, rfl⟩
  · exact simE_onErr

/-- The two responses differ in their tokens, and that does not matter. -/
abbrev AnyResp : Response → Response → Prop := fun _ _ => True

theorem simE_attach {c info sess now} {x x' : Response} : SimE (Renamed s) (ExceptRel AnyResp)
    (Grant.attachIdToken lib c info sess now x).run (Grant.attachIdToken lib c info sess now x').run := by
  unfold Grant.attachIdToken
  dsimp only
  split
  · refine simE_xsame still_tok.glog fun _ => simE_xsame (still_tok (gt := []).gask rfl rfl) fun iss => ?_
    split
    · exact simE_logThrow
    · exact ⟨_, rfl, trivial⟩
  · exact ⟨_, rfl, trivial⟩

theorem simE_ite {α β : Type} {R : α → β → Prop} {c : Prop} [Decidable c] {p1 p2 : Prog α} {q1 q2 : Prog β} {E : Event → Event → Prop}
    (h1 : c → SimE E R p1 q1) (h2 : ¬ c → SimE E R p2 q2) : SimE E R (if c then p1 else p2) (if c then q1 else q2) := by
  split
  · exact h1 ‹_›
  · exact h2 ‹_›

theorem simE_code {c now} : SimE (Renamed s) (ExceptRel AnyResp) (Grant.authorizationCode lib r c now).run
    (Grant.authorizationCode lib r c now).run := by
  unfold Grant.authorizationCode
  refine simE_xsame still_tok.needParam fun uri => simE_xsame still_tok.needParam fun code =>
    simE_xsame (still_tok (gt := []).gask rfl rfl) fun _ => simE_xsame still_tok.checkVal fun sess =>
    simE_xsame (still_tok (gt := []).gask rfl rfl) fun _ => simE_xsame still_tok.checkVal fun info => ?_
  by_cases h1 : info.clientId ≠ c.id
  · rw [if_pos h1]; exact simE_logThrow
  rw [if_neg h1]
  by_cases h2 : sess.redirectURI ≠ uri
  · rw [if_pos h2]; exact simE_logThrow
  rw [if_neg h2]
  exact simE_xsame still_tok.checkPkce fun _ => simE_xbind simE_create fun a b hab => simE_xbind (simE_checkVal hab) fun _ _ _ =>
    simE_xsame (still_tok (gt := []).gask rfl rfl) fun _ => simE_xsame still_tok.checkErr fun _ => simE_attach

theorem simE_refresh {c now} : SimE (Renamed s) (ExceptRel AnyResp) (Grant.refreshToken r c now).run
    (Grant.refreshToken r c now).run := by
  unfold Grant.refreshToken
  refine simE_xsame still_tok.needParam fun rt => simE_xbind simE_found fun a b hab => simE_xbind (simE_checkVal hab) fun old old' ho => ?_
  subst ho
  by_cases h1 : old.refreshTokenExpiresIn + old.createdAt < now
  · rw [if_pos h1, if_pos (show (renamedToken s old).refreshTokenExpiresIn + (renamedToken s old).createdAt < now from h1)]
    exact simE_logThrow
  rw [if_neg h1, if_neg (show ¬ (renamedToken s old).refreshTokenExpiresIn + (renamedToken s old).createdAt < now from h1)]
  refine simE_xsame (p := gask (.findActiveAuthInfoById old.authId)) (still_tok (gt := []).gask rfl rfl) fun i =>
    simE_xsame still_tok.checkVal fun info => ?_
  by_cases h2 : info.clientId ≠ c.id
  · rw [if_pos h2, if_pos h2]; exact simE_logThrow
  rw [if_neg h2, if_neg h2]
  by_cases h3 : Scope.includeOfflineAccess info.scope = false
  · rw [if_pos h3, if_pos h3]; exact simE_logThrow
  rw [if_neg h3, if_neg h3]
  exact simE_xbind simE_refreshed fun a b hab => simE_xbind (simE_checkVal hab) fun _ _ _ => ⟨_, rfl, trivial⟩

theorem simE_issue {gt c u sc} : SimE (Renamed s) (ExceptRel AnyResp) (Grant.issue gt c u sc).run (Grant.issue gt c u sc).run :=
  simE_xsame (still_tok (gt := []).gask rfl rfl) fun _ => simE_xsame still_tok.checkVal fun _ =>
    simE_xbind simE_create fun _ _ hab => simE_xbind (simE_checkVal hab) fun _ _ _ => ⟨_, rfl, trivial⟩

theorem simE_password {c now} : SimE (Renamed s) (ExceptRel AnyResp) (Grant.password r c now).run (Grant.password r c now).run :=
  simE_xsame still_tok.needParam fun _ => simE_xsame still_tok.needParam fun _ => simE_xsame still_tok.checkScope fun _ =>
    simE_xsame (still_tok (gt := []).gask rfl rfl) fun _ => simE_xsame still_tok.checkErr fun _ => simE_issue

theorem simE_cc {c now} : SimE (Renamed s) (ExceptRel AnyResp) (Grant.clientCredentials r c now).run
    (Grant.clientCredentials r c now).run := by
  unfold Grant.clientCredentials
  by_cases h : c.ownerUserId < 0
  · rw [if_pos h]; exact simE_logThrow
  · rw [if_neg h]; exact simE_xsame still_tok.checkScope fun _ => simE_issue

theorem simE_jwt {c now} : SimE (Renamed s) (ExceptRel AnyResp) (Grant.jwt lib r c now).run (Grant.jwt lib r c now).run := by
  unfold Grant.jwt
  refine simE_xsame still_tok.needParam fun _ => simE_xsame (allQ_xlift (allQ_parse (renamed_refl rfl) fun t => ?_)) fun p =>
    simE_xsame still_tok.handle fun _ => ?_
  · unfold Grant.jwtKeyFunc; split <;> trivial
  · split
    · rfl
    split
    · exact simE_logThrow
    · exact simE_xsame (still_tok (gt := []).gask rfl rfl) fun _ => simE_xsame still_tok.checkErr fun _ =>
        simE_xsame still_tok.checkScope fun _ => simE_issue

theorem simE_execute {c gt} {g : GrantFunc} (hb : BuiltIn lib g) : SimE (Renamed s) Eq (executeGrantHandler cfg r c gt g)
    (executeGrantHandler cfg r c gt g) := by
  unfold executeGrantHandler
  refine simE_same (allQ_ask (renamed_refl rfl)) fun now => simE_bind (R := ExceptRel AnyResp) ?_ fun a b hab => ?_
  · cases hb with
    | authorizationCode => exact simE_code
    | refreshToken => exact simE_refresh
    | password => exact simE_password
    | clientCredentials => exact simE_cc
    | jwt => exact simE_jwt
  · cases a <;> cases b
    · have : _ = _ := hab
      subst this
      exact simE_write rfl
    · exact hab.elim
    · exact hab.elim
    · exact simE_logWrite rfl

theorem still_one : ∀ q, PhaseOne q → Still s q := by
  intro q hq
  refine renamed_refl ?_
  cases q <;> first | rfl | (revert hq; simp [PhaseOne, IsAuthCall, Query.isLog, Query.isWrite])

theorem simE_handler (hb : AllBuiltIn lib cfg) : SimE (Renamed s) Eq (handler cfg lib r) (handler cfg lib r) := by
  unfold handler
  split
  · exact simE_logWrite rfl
  dsimp only
  split
  · exact simE_logWrite rfl
  split
  · exact simE_logWrite rfl
  rename_i hh
  have hbi := hb _ _ hh
  split
  · refine simE_same (allQ_mono still_one phaseOne_bySecret) fun c => ?_
    cases c with
    | none => exact ⟨_, rfl, rfl⟩
    | some c => exact simE_execute hbi
  split
  · refine simE_same (allQ_mono still_one phaseOne_byAssertion) fun c => ?_
    cases c with
    | none => exact ⟨_, rfl, rfl⟩
    | some c => exact simE_execute hbi
  · exact simE_logWrite rfl

/-- Histories that differ in tokens and codes only have the same log. -/
theorem alongside_log {t t' : List Event} (h : Alongside (Renamed s) t t') : logOutput t' = logOutput t := by
  induction h with
  | nil => rfl
  | @cons a b l m hab _ ih =>
    obtain ⟨q, x⟩ := a
    cases q
    case write => obtain ⟨_, rfl, _⟩ := hab; exact ih
    case mapRange => obtain ⟨_, _, rfl⟩ := hab; exact ih
    case log l => have : b = _ := hab; subst this; exact congrArg (l :: ·) ih
    all_goals (have : b = _ := hab; subst this; exact ih)

/-- C106, the token endpoint: had the application made up other strings for its tokens, the same calls would
have been made, the same lines logged, and a response with the same status sent. -/
theorem C106_token (s : GoStr → GoStr) (hb : AllBuiltIn lib cfg) (h : Runs (handler cfg lib r) t o) :
    ∃ t', Runs (handler cfg lib r) t' o ∧ Alongside (Renamed s) t t' ∧ logOutput t' = logOutput t := by
  obtain ⟨t', ha, hr⟩ := simE_runs_eq (simE_handler (s := s) hb) h
  exact ⟨t', hr, ha, alongside_log ha⟩

/-! ## The authorization endpoint -/

section front
open AuthzEndpoint

variable {req : Request} {clnt : Client} {b : Outcome Bool}

theorem output_success {mode uri ps} : AllQ (fun q => q.isOutput = true) (AuthResponse.success lib r mode uri ps) := by
  have hd : ∀ {ty}, AllQ (fun q => q.isOutput = true) (AuthResponse.redirectTo lib r ty uri ps) := by
    intro ty
    refine allQ_of_runs fun t o h e he => ?_
    rcases redirectTo_runs h with ⟨_, rfl, _⟩ | ⟨_, _, c, rfl, _⟩
    · simp at he
    · obtain rfl := List.mem_singleton.1 he
      rfl
  unfold AuthResponse.success
  split
  · exact hd
  split
  · exact hd
  split
  · exact allQ_bind' (allQ_ask rfl) fun _ => allQ_ask rfl
  · exact hd

theorem still_front {uri} : FrontQ (Still s) lib r uri :=
  ⟨fun _ _ _ => renamed_refl rfl, fun _ _ => allQ_mono (fun _ => still_output) output_success, fun _ _ h => renamed_refl h⟩

theorem simE_redirectTo {ty uri ps ps'} : SimE (Renamed s) Eq (AuthResponse.redirectTo lib r ty uri ps)
    (AuthResponse.redirectTo lib r ty uri ps') := by
  unfold AuthResponse.redirectTo AuthResponse.connector
  split
  · rfl
  · cases ty <;> exact simE_write rfl

theorem simE_success {mode uri ps ps'} : SimE (Renamed s) Eq (AuthResponse.success lib r mode uri ps)
    (AuthResponse.success lib r mode uri ps') := by
  unfold AuthResponse.success
  split
  · exact simE_redirectTo
  split
  · exact simE_redirectTo
  split
  · refine simE_bind (R := fun _ _ => True) ?_ fun a b _ => simE_write rfl
    exact fun x => ⟨.mapRange ps', _, ⟨ps', List.Perm.refl _⟩, rfl, ⟨_, _, rfl⟩, _, rfl, trivial⟩
  · exact simE_redirectTo

theorem simE_code_new : SimE (Renamed s) (fun a b => b = a.map s) (ask .createAuthorizationCode) (ask .createAuthorizationCode) :=
  fun x => ⟨.createAuthorizationCode, _, x.map s, rfl, rfl, _, rfl, rfl⟩

theorem simE_session {info code e a} : SimE (Renamed s) Eq (ask (.createAuthSession info (req.toSession code e a)))
    (ask (.createAuthSession info (req.toSession (s code) e a))) :=
  fun x => ⟨.createAuthSession info (req.toSession (s code) e a), _, x, rfl, rfl, x, rfl, rfl⟩

theorem simE_fail {rh} : SimE (Renamed s) Eq (completeFail lib r rh req) (completeFail lib r rh req) :=
  simE_refl still_front.completeFail

theorem simE_callbackFail {rh m} : SimE (Renamed s) Eq (completeCallbackFail lib r rh req m) (completeCallbackFail lib r rh req m) :=
  simE_refl still_front.completeCallbackFail

/-- An access token and its other name. -/
def FrontRel (s : GoStr → GoStr) (a b : Option (GoStr × Params)) : Prop :=
  (a = none ∧ b = none) ∨ ∃ x ps x' ps', a = some (x, ps) ∧ b = some (x', ps') ∧ (x = [] ↔ x' = [])

theorem simE_frontToken (hs : ∀ x, s x = [] ↔ x = []) {info f key} : SimE (Renamed s) (FrontRel s) (frontToken info f key)
    (frontToken info f key) := by
  unfold frontToken
  split
  · refine simE_bind (R := TokRel s) ?_ fun a b hab => ?_
    · exact fun x => ⟨.createOAuthToken info false, _, (x.1.map (renamedToken s), x.2), rfl, rfl, _, rfl, rfl⟩
    · unfold TokRel at hab
      subst hab
      rcases a with ⟨_ | tk, _ | e⟩
      · rfl
      · exact ⟨_, rfl, .inl ⟨rfl, rfl⟩⟩
      · exact ⟨_, rfl, .inr ⟨_, _, _, _, rfl, rfl, (hs _).symm⟩⟩
      · exact ⟨_, rfl, .inl ⟨rfl, rfl⟩⟩
  · exact ⟨_, rfl, .inr ⟨_, _, _, _, rfl, rfl, Iff.rfl⟩⟩

/-- Both or neither. -/
def SameSome {α β : Type} (a : Option α) (b : Option β) : Prop := a.isSome = b.isSome

theorem hash_some {alg x x' : GoStr} : (IdToken.hash lib alg x).isSome = (IdToken.hash lib alg x').isSome := by
  unfold IdToken.hash
  split
  · rfl
  split
  · rfl
  split <;> rfl

theorem rawGen_some {alg : GoStr} {key : Option Key} {kid iss cid sub n : GoStr} {e a i : Int64} {x y x' y' : GoStr} :
    (IdToken.rawGen lib alg key kid iss cid sub n e a i x y).isSome = (IdToken.rawGen lib alg key kid iss cid sub n e a i x' y').isSome := by
  unfold IdToken.rawGen Jwt.signed
  split
  · rfl
  · split <;> first | rfl | (split <;> rfl)

theorem simE_frontId {c : Option Client} {info : Option AuthInfo} {f : Flow} {a : Int64} {x x' : GoStr} {code code' : Option GoStr}
    (hx : x = [] ↔ x' = []) (hc : code.isSome = code'.isSome) : SimE (Renamed s) SameSome
    (frontIdToken policy lib c info f req a x code) (frontIdToken policy lib c info f req a x' code') := by
  unfold frontIdToken
  split
  · cases c with
    | none => rfl
    | some c =>
      refine simE_same (allQ_ask (renamed_refl rfl)) fun iss => ?_
      cases info with
      | none => rfl
      | some i =>
        refine simE_same (allQ_ask (renamed_refl rfl)) fun now => ?_
        dsimp only
        have fin : ∀ {g g' : Option GoStr}, g.isSome = g'.isSome → SimE (Renamed s) SameSome
            (match g with | none => pure none | some idt => pure (some [(b!"id_token", idt)]) : Prog (Option Params))
            (match g' with | none => pure none | some idt => pure (some [(b!"id_token", idt)]) : Prog (Option Params)) := by
          intro g g' h
          cases g <;> cases g' <;> first | simp at h; done | exact ⟨_, rfl, rfl⟩
        have hh : (if x = [] then some [] else IdToken.hash lib c.idTokenAlg x).isSome =
            (if x' = [] then some [] else IdToken.hash lib c.idTokenAlg x').isSome := by
          by_cases h : x = []
          · rw [if_pos h, if_pos (hx.1 h)]
          · rw [if_neg h, if_neg (fun h' => h (hx.2 h'))]
            exact hash_some
        cases code <;> cases code' <;> first | simp at hc; done | skip
        · refine fin ?_
          dsimp only
          unfold IdToken.genForImplicit
          revert hh
          generalize (if x = [] then some [] else IdToken.hash lib c.idTokenAlg x) = g
          generalize (if x' = [] then some [] else IdToken.hash lib c.idTokenAlg x') = g'
          intro hh
          cases g <;> cases g' <;> first | simp at hh; done | rfl | exact rawGen_some
        · rename_i cd cd'
          refine fin ?_
          dsimp only
          unfold IdToken.genForHybrid
          have h2 := hash_some (lib := lib) (alg := c.idTokenAlg) (x := cd) (x' := cd')
          revert hh h2
          generalize (if x = [] then some [] else IdToken.hash lib c.idTokenAlg x) = g
          generalize (if x' = [] then some [] else IdToken.hash lib c.idTokenAlg x') = g'
          generalize IdToken.hash lib c.idTokenAlg cd = k
          generalize IdToken.hash lib c.idTokenAlg cd' = k'
          intro hh h2
          cases g <;> cases g' <;> cases k <;> cases k' <;>
            first | simp at hh; done | simp at h2; done | rfl | exact rawGen_some
  · exact ⟨_, rfl, rfl⟩

theorem simE_sent {mode uri ps ps'} : SimE (Renamed s) Eq (do AuthResponse.success lib r mode uri ps; pure true : Prog Bool)
    (do AuthResponse.success lib r mode uri ps'; pure true : Prog Bool) :=
  simE_bind simE_success fun _ _ _ => ⟨_, rfl, rfl⟩

theorem simE_complete (hs : ∀ x, s x = [] ↔ x = []) {rh info} : SimE (Renamed s) Eq (complete policy lib r rh info req)
    (complete policy lib r rh info req) := by
  unfold complete
  split
  · rfl
  split
  · unfold completeCode
    refine simE_bind simE_code_new fun a b hab => ?_
    subst hab
    cases a with
    | none => exact simE_callbackFail
    | some code =>
      refine simE_same (allQ_ask (renamed_refl rfl)) fun at' => ?_
      cases at' with
      | none => exact simE_callbackFail
      | some at' =>
        refine simE_bind simE_session fun x y hxy => ?_
        subst hxy
        cases x with
        | none => exact simE_sent
        | some _ => exact simE_fail
  · unfold completeImplicit
    refine simE_same (p := ask (.findClientById req.clientId)) (allQ_ask (renamed_refl rfl)) fun c => ?_
    obtain ⟨c, _ | e⟩ := c
    · refine simE_bind (simE_frontToken hs) fun a b hab => ?_
      rcases hab with ⟨rfl, rfl⟩ | ⟨x, ps, x', ps', rfl, rfl, hx⟩
      · exact simE_fail
      · refine simE_same (allQ_ask (renamed_refl rfl)) fun at' => ?_
        cases at' with
        | none => exact simE_callbackFail
        | some at' =>
          refine simE_bind (simE_frontId hx rfl) fun u v huv => ?_
          cases u <;> cases v <;> first | simp [SameSome] at huv; done | skip
          · exact simE_fail
          · exact simE_sent
    · exact simE_fail
  · unfold completeHybrid
    refine simE_bind simE_code_new fun a b hab => ?_
    subst hab
    cases a with
    | none => exact simE_callbackFail
    | some code =>
      refine simE_same (allQ_ask (renamed_refl rfl)) fun at' => ?_
      cases at' with
      | none => exact simE_callbackFail
      | some at' =>
        refine simE_bind simE_session fun x y hxy => ?_
        subst hxy
        cases x with
        | some _ => exact simE_fail
        | none =>
          refine simE_same (p := ask (.findClientById req.clientId)) (allQ_ask (renamed_refl rfl)) fun c => ?_
          obtain ⟨c, _ | e⟩ := c
          · refine simE_bind (simE_frontToken hs) fun a b hab => ?_
            rcases hab with ⟨rfl, rfl⟩ | ⟨x, ps, x', ps', rfl, rfl, hx⟩
            · exact simE_fail
            · refine simE_bind (simE_frontId hx rfl) fun u v huv => ?_
              cases u <;> cases v <;> first | simp [SameSome] at huv; done | skip
              · exact simE_fail
              · exact simE_sent
          · exact simE_fail
  · exact ⟨_, rfl, rfl⟩

theorem simE_finish {α : Type} (hs : ∀ x, s x = [] ↔ x = []) {info} : SimE (Renamed s) (ExceptRel (β := α) Eq)
    (finish policy lib r info req : AuthM α).run (finish policy lib r info req : AuthM α).run := by
  unfold finish
  refine simE_xbind (R := Eq) ?_ fun a b hab => ?_
  · have := simE_complete (s := s) (policy := policy) (lib := lib) (r := r) (req := req) hs (rh := req.responseMode) (info := some info)
    exact simE_bind this fun a b hab => ⟨_, rfl, hab⟩
  · have hab : a = b := hab
    subst hab
    exact ⟨_, rfl, rfl⟩

theorem simE_none {α : Type} (hs : ∀ x, s x = [] ↔ x = []) : SimE (Renamed s) (ExceptRel (β := α) Eq)
    (noneComplete policy lib r req : AuthM α).run (noneComplete policy lib r req : AuthM α).run := by
  unfold noneComplete
  refine simE_xsame (allQ_xlift (allQ_ask (renamed_refl rfl))) fun uid => ?_
  cases uid with
  | none => exact simE_xrefl still_front.callbackFailed
  | some uid =>
    refine simE_xsame (p := aask (.findAuthInfoByUserIdAndClientId uid req.clientId)) (allQ_xlift (allQ_ask (renamed_refl rfl))) fun i => ?_
    rcases i with ⟨_ | info, _ | _ | _ | _ | n⟩
    case some.none =>
      refine simE_xsame (p := consentCovers policy info req) (still_front (lib := lib) (r := r) (uri := []).consentCovers) fun ok => ?_
      cases ok
      · exact simE_xrefl still_front.errorTo
      · exact simE_finish hs
    all_goals exact simE_xrefl still_front.errorTo

theorem simE_promptNone (hs : ∀ x, s x = [] ↔ x = []) : SimE (Renamed s) (ExceptRel Eq) (promptNone policy lib r clnt req).run
    (promptNone policy lib r clnt req).run := by
  unfold promptNone
  cases clnt.nonePromptPolicy with
  | forbidden => exact simE_xsame (still_front (lib := lib) (r := r) (uri := []).alog) fun _ => simE_xrefl still_front.errorTo
  | allowWithLoginSession => exact simE_xsame still_front.requireLogin fun _ => simE_none hs
  | allowIfLoginHintMatched =>
    dsimp only
    split
    · exact simE_xrefl still_front.errorTo
    · exact simE_xsame still_front.requireLogin fun _ => simE_xsame still_front.requireMatch fun _ => simE_none hs
  | allowIfIdTokenHintMatched =>
    exact simE_xsame still_front.checkIdTokenHint fun _ => simE_xsame still_front.requireMatch fun _ => simE_none hs
  | other => exact ⟨_, rfl, rfl⟩

theorem simE_omit (hs : ∀ x, s x = [] ↔ x = []) : SimE (Renamed s) (ExceptRel Eq) (omitConsent policy lib r clnt req).run
    (omitConsent policy lib r clnt req).run := by
  unfold omitConsent
  split
  · exact ⟨_, rfl, rfl⟩
  · cases clnt.noConsentPromptPolicy with
    | forceConsent => exact ⟨_, rfl, rfl⟩
    | other => exact ⟨_, rfl, rfl⟩
    | omitConsentIfCan =>
      refine simE_xsame (allQ_xlift (allQ_ask (renamed_refl rfl))) fun uid => ?_
      cases uid with
      | none => exact simE_xrefl still_front.callbackFailed
      | some uid =>
        refine simE_xsame (p := aask (.findAuthInfoByUserIdAndClientId uid req.clientId)) (allQ_xlift (allQ_ask (renamed_refl rfl))) fun i => ?_
        rcases i with ⟨_ | info, _ | _ | _ | _ | n⟩
        case some.none =>
          refine simE_xsame (p := consentCovers policy info req) (still_front (lib := lib) (r := r) (uri := []).consentCovers) fun ok => ?_
          cases ok
          · exact ⟨_, rfl, rfl⟩
          · exact simE_finish hs
        all_goals first | exact simE_xrefl still_front.errorTo | exact ⟨_, rfl, rfl⟩

theorem simE_request (hs : ∀ x, s x = [] ↔ x = []) : SimE (Renamed s) Eq (handleRequest policy lib r) (handleRequest policy lib r) := by
  unfold handleRequest
  refine simE_bind (R := ExceptRel Eq) ?_ fun a b hab => ?_
  · unfold handleRequestM
    refine simE_xsame (still_front (lib := lib) (r := r) (uri := []).identify) fun clnt => simE_xsame still_front.buildRequest fun req => ?_
    have rest : SimE (Renamed s) (ExceptRel Eq)
        (promptLogin lib r req >>= fun _ => checkAuthAge lib r req >>= fun _ => omitConsent policy lib r clnt req >>= fun _ =>
          showConsent lib r clnt req).run
        (promptLogin lib r req >>= fun _ => checkAuthAge lib r req >>= fun _ => omitConsent policy lib r clnt req >>= fun _ =>
          showConsent lib r clnt req).run :=
      simE_xsame still_front.promptLogin fun _ => simE_xsame still_front.checkAuthAge fun _ =>
        simE_xbind (R := Eq) (simE_omit hs) fun _ _ _ => simE_xrefl still_front.showConsent
    dsimp only
    split
    · exact simE_xbind (R := Eq) (simE_promptNone hs) fun _ _ _ => rest
    · exact simE_xsame still_front.confirmLogin fun _ => rest
  · have hab := exceptRel_eq.1 hab
    subst hab
    cases a <;> exact ⟨_, rfl, rfl⟩

theorem simE_continued (hs : ∀ x, s x = [] ↔ x = []) : SimE (Renamed s) Eq (completeRequest policy lib r) (completeRequest policy lib r) := by
  unfold completeRequest
  refine simE_same (allQ_ask (renamed_refl rfl)) fun x => ?_
  match x with
  | none => exact simE_same (still_front (lib := lib) (r := r) (uri := []).plog) fun _ => ⟨_, rfl, rfl⟩
  | some none => rfl
  | some (some req) =>
    refine simE_same (allQ_ask (renamed_refl rfl)) fun x => ?_
    cases x with
    | none => exact simE_callbackFail
    | some uid =>
      refine simE_same (p := ask (.createOrUpdateAuthInfo uid req.clientId req.scope)) (allQ_ask (renamed_refl rfl)) fun x => ?_
      rcases x with ⟨i, _ | _⟩
      · exact simE_complete hs
      · exact simE_fail

/-- C106, the authorization endpoint (`HandleRequest` and `CompleteRequest`): had the application made up other
strings, as empty or not as these, for its codes and tokens, the same lines would have been logged. -/
theorem C106_authorization (s : GoStr → GoStr) (hs : ∀ x, s x = [] ↔ x = []) :
    (Runs (handleRequest policy lib r) t b → ∃ t', Runs (handleRequest policy lib r) t' b ∧ Alongside (Renamed s) t t' ∧
      logOutput t' = logOutput t) ∧
    (Runs (completeRequest policy lib r) t b → ∃ t', Runs (completeRequest policy lib r) t' b ∧ Alongside (Renamed s) t t' ∧
      logOutput t' = logOutput t) := by
  refine ⟨fun h => ?_, fun h => ?_⟩
  · obtain ⟨t', ha, hr⟩ := simE_runs_eq (simE_request (s := s) hs) h
    exact ⟨t', hr, ha, alongside_log ha⟩
  · obtain ⟨t', ha, hr⟩ := simE_runs_eq (simE_continued (s := s) hs) h
    exact ⟨t', hr, ha, alongside_log ha⟩

end front

/-! ## Protected resources -/

section protector
open ResourceProtector
variable {cfg : ProtectorCfg} {scopes : List (GoStr × List GoStr)} {b : Outcome (Bool × Req)}

theorem still_validateInfo {rt atk} : AllQ (Still s) (validateInfo cfg lib r rt atk) := by
  unfold validateInfo
  refine allQ_bind' (allQ_ask (renamed_refl rfl)) fun x => ?_
  have h1 : ∀ {lv ev ps} {p : Prog Unit} {a : Bool × Req}, AllQ (Still s) p →
      AllQ (Still s) (do tlog lv r.path ev ps; p; pure a : Prog (Bool × Req)) :=
    fun hp => allQ_bind' (allQ_ask (renamed_refl rfl)) fun _ => allQ_bind' hp fun _ => trivial
  have h2 : ∀ {lv ev ps} {p : Prog Unit} {a : Bool × Req}, AllQ (Still s) p →
      AllQ (Still s) (do plog lv r.path ev ps; p; pure a : Prog (Bool × Req)) :=
    fun hp => allQ_bind' (allQ_ask (renamed_refl rfl)) fun _ => allQ_bind' hp fun _ => trivial
  have hu : ∀ {e}, AllQ (Still s) (unauthorize cfg lib e) := allQ_ask (renamed_refl rfl)
  have hi : AllQ (Still s) internalError := allQ_ask (renamed_refl rfl)
  rcases x with ⟨_ | i, _ | _ | _ | _ | n⟩
  all_goals first
    | exact h1 hu
    | exact h1 hi
    | exact h2 hi
    | trivial

theorem info_same {rt : GoStr} {a b : OAuthToken} (h : a.authId = b.authId) : validateInfo cfg lib r rt a = validateInfo cfg lib r rt b := by
  unfold validateInfo
  rw [h]
  congr 1
  funext x
  rcases x with ⟨_ | _, _ | _ | _ | _ | _⟩ <;> rfl

theorem simE_validate : SimE (Renamed s) Eq (validate cfg lib r) (validate cfg lib r) := by
  have h1 : ∀ {lv ev ps} {p : Prog Unit} {a : Bool × Req}, AllQ (Still s) p →
      SimE (Renamed s) Eq (do tlog lv r.path ev ps; p; pure a : Prog (Bool × Req)) (do tlog lv r.path ev ps; p; pure a : Prog (Bool × Req)) :=
    fun hp => simE_refl (allQ_bind' (allQ_ask (renamed_refl rfl)) fun _ => allQ_bind' hp fun _ => trivial)
  have h2 : ∀ {lv ev ps} {p : Prog Unit} {a : Bool × Req}, AllQ (Still s) p →
      SimE (Renamed s) Eq (do plog lv r.path ev ps; p; pure a : Prog (Bool × Req)) (do plog lv r.path ev ps; p; pure a : Prog (Bool × Req)) :=
    fun hp => simE_refl (allQ_bind' (allQ_ask (renamed_refl rfl)) fun _ => allQ_bind' hp fun _ => trivial)
  have hu : ∀ {e}, AllQ (Still s) (unauthorize cfg lib e) := allQ_ask (renamed_refl rfl)
  have hi : AllQ (Still s) internalError := allQ_ask (renamed_refl rfl)
  unfold validate
  dsimp only
  split
  · exact h1 hu
  refine simE_bind (R := TokRel s) ?_ fun a b hab => ?_
  · exact fun x => ⟨.findOAuthTokenByAccessToken (findTokenFromRequest cfg r), _, (x.1.map (renamedToken s), x.2), rfl, rfl, _, rfl, rfl⟩
  · unfold TokRel at hab
    subst hab
    rcases a with ⟨_ | atk, _ | _ | _ | _ | n⟩
    case some.none =>
      show SimE (Renamed s) Eq (validateToken cfg lib r _ atk) (validateToken cfg lib r _ (renamedToken s atk))
      unfold validateToken
      refine simE_same (allQ_ask (renamed_refl rfl)) fun now => ?_
      by_cases h : atk.refreshedAt + atk.accessTokenExpiresIn < now
      · rw [if_pos h, if_pos (show (renamedToken s atk).refreshedAt + (renamedToken s atk).accessTokenExpiresIn < now from h)]
        exact simE_same (allQ_ask (renamed_refl rfl)) fun _ => h1 hu
      · rw [if_neg h, if_neg (show ¬ (renamedToken s atk).refreshedAt + (renamedToken s atk).accessTokenExpiresIn < now from h)]
        rw [show validateInfo cfg lib r (findTokenFromRequest cfg r) (renamedToken s atk) =
          validateInfo cfg lib r (findTokenFromRequest cfg r) atk from info_same rfl]
        exact simE_refl still_validateInfo
    all_goals first
      | exact h2 hu
      | exact h2 hi

/-- C106, protected resources: the refresh token of the token presented, and whatever the store has as its
access token, have no influence on what is logged and passed on to the application. -/
theorem C106_protector (s : GoStr → GoStr) :
    (Runs (validate cfg lib r) t b → ∃ t', Runs (validate cfg lib r) t' b ∧ Alongside (Renamed s) t t' ∧ logOutput t' = logOutput t) ∧
    (Runs (validateWithScopes cfg lib r scopes) t b → ∃ t', Runs (validateWithScopes cfg lib r scopes) t' b ∧
      Alongside (Renamed s) t t' ∧ logOutput t' = logOutput t) := by
  refine ⟨fun h => ?_, fun h => ?_⟩
  · obtain ⟨t', ha, hr⟩ := simE_runs_eq (simE_validate (s := s)) h
    exact ⟨t', hr, ha, alongside_log ha⟩
  · have hsim : SimE (Renamed s) Eq (validateWithScopes cfg lib r scopes) (validateWithScopes cfg lib r scopes) := by
      unfold validateWithScopes
      refine simE_bind simE_validate fun a a' hab => ?_
      subst hab
      refine simE_refl ?_
      obtain ⟨ok, r'⟩ := a
      dsimp only
      split
      · trivial
      split
      · split
        · trivial
        · exact allQ_bind' (allQ_ask (renamed_refl rfl)) fun _ => trivial
      · trivial
    obtain ⟨t', ha, hr⟩ := simE_runs_eq hsim h
    exact ⟨t', hr, ha, alongside_log ha⟩

end protector

/-! ## The hypotheses are met

Other strings for the tokens of the sample world, and runs that issue tokens, codes and ID tokens and have
something to log. -/

/-- Another name for everything. -/
def otherName (x : GoStr) : GoStr := if x = [] then [] else b!"other-" ++ x

example : (∀ x, otherName x = [] ↔ x = []) ∧ renamedToken otherName Sample.token ≠ Sample.token := by
  refine ⟨fun x => ?_, by decide +kernel⟩
  unfold otherName
  split <;> simp_all

example : (logOutput (({} : Sample.World).run (handler Sample.tokenCfg Sample.lib (Sample.post Sample.codeBody))).1).length = 2 ∧
    ({} : Sample.World).status (handler Sample.tokenCfg Sample.lib (Sample.post Sample.codeBody)) = some 200 ∧
    ({} : Sample.World).status (handler Sample.tokenCfg Sample.lib (Sample.post Sample.refreshBody)) = some 200 := by
  decide +kernel

/-- Completing a hybrid request, with a code, an access token and an ID token in the response. -/
example : ({ continued := some (some (continuedReq ⟨.hybrid, true, true⟩ b!"fragment")) } : Sample.World).status
      (AuthzEndpoint.completeRequest .default Sample.lib codeGet) = some 302 ∧
    ({} : Sample.World).status (ResourceProtector.validate sampleProtector Sample.lib sampleBearer) = none := by
  decide +kernel

end Goidc.Props
