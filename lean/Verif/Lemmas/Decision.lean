import Verif.Lemmas.Complete

/-! # Runs of the second half of `HandleRequest`: what to do with a valid request -/

namespace Goidc

open Spec AuthzEndpoint

/-- Error types the decision phase can send. -/
def decisionErrors : List GoStr :=
  [b!"interaction_required", b!"login_required", b!"consent_required", b!"invalid_request", b!"server_error"]

/-- An ID token hint the provider accepts for this client, with its subject. -/
def HintAccepted (lib : Lib) (clnt : Client) (hint sub : GoStr) (t : List Event) : Prop :=
  hint ≠ [] ∧ ∃ tk now, lib.jwtDecode hint = some tk ∧ ⟨.wallNow, now⟩ ∈ t ∧
    Jwt.verifies lib (tk.alg.getD []) hint (clnt.idTokenKey.getD (.other [])) = true ∧
    Jwt.expOk now (tk.claim b!"exp") = true ∧
    (Assertion.numClaim (tk.claim b!"exp")).isSome = true ∧ tk.claimStr b!"sub" = some sub

/-- What `prompt=none` requires before it completes, besides consent. -/
def NonePath (lib : Lib) (clnt : Client) (req : Request) (t : List Event) : Prop :=
  req.prompt = Prompt.pNone ∧
  ((clnt.nonePromptPolicy = .allowWithLoginSession ∧ ⟨.confirmLoginSession, some true⟩ ∈ t) ∨
   (clnt.nonePromptPolicy = .allowIfLoginHintMatched ∧ req.loginHint ≠ [] ∧
      ⟨.confirmLoginSession, some true⟩ ∈ t ∧
      ⟨.loginUserIsMatchedToSubject req.loginHint, some true⟩ ∈ t) ∨
   (clnt.nonePromptPolicy = .allowIfIdTokenHintMatched ∧ ∃ sub, HintAccepted lib clnt req.idTokenHint sub t ∧
      ⟨.loginUserIsMatchedToSubject sub, some true⟩ ∈ t))

/-- An earlier consent of the login user covers the request. -/
def Covered (policy : Policy) (req : Request) (info : AuthInfo) (t : List Event) : Prop :=
  ∃ uid now, ⟨.getLoginUserId, some uid⟩ ∈ t ∧
    ⟨.findAuthInfoByUserIdAndClientId uid req.clientId, (some info, none)⟩ ∈ t ∧
    info.isActive = true ∧ Scope.same info.scope req.scope = true ∧
    ⟨.now, now⟩ ∈ t ∧ info.authorizedAt + policy.consentOmissionPeriod > now

/-- The user may be talked to: not `prompt=none`, or a client policy outside the constants. -/
def MayInteract (clnt : Client) (req : Request) : Prop :=
  req.prompt ≠ Prompt.pNone ∨ clnt.nonePromptPolicy = .other

/-- The checks passed on the interactive path. -/
def Passed (req : Request) (t : List Event) : Prop :=
  (req.prompt ≠ Prompt.pNone → ⟨.confirmLoginSession, some true⟩ ∈ t) ∧
  (Prompt.includeLogin req.prompt = true → ⟨.requestIsFromLogin, some true⟩ ∈ t) ∧
  (req.maxAge > 0 → ∃ at_ now, ⟨.getAuthTime, some at_⟩ ∈ t ∧ ⟨.now, now⟩ ∈ t ∧ ¬ req.maxAge < now - at_)

/-- An error is sent to the redirect URI, possibly after one failed screen callback. -/
def ErrorEnd (lib : Lib) (clnt : Client) (req : Request) (t : List Event) (o : Outcome Bool) : Prop :=
  ∃ pre t', t = pre ++ t' ∧
    Rejected lib req.responseMode req.redirectURI req.state decisionErrors t' o ∧
    (pre = [] ∨ Rejected lib req.responseMode req.redirectURI req.state [b!"server_error"] t' o) ∧
    (pre = [] ∨
     (MayInteract clnt req ∧ ∃ t0, Inert t0 ∧ pre = t0 ++ [⟨.showLoginScreen req, false⟩]) ∨
     (MayInteract clnt req ∧ ∃ t0, Inert t0 ∧ Passed req t0 ∧ pre = t0 ++ [⟨.showConsentScreen clnt req, false⟩]))

/-- The login screen is the last thing that happens.  A failure of the callback (`b = false`) gets here
only when the login is asked for by `prompt` or `max_age`. -/
def LoginEnd (clnt : Client) (req : Request) (t : List Event) (o : Outcome Bool) : Prop :=
  MayInteract clnt req ∧ o = .ok false ∧ ∃ t0 b, t = t0 ++ [⟨.showLoginScreen req, b⟩] ∧ Inert t0 ∧
    (b = true ∨ Prompt.includeLogin req.prompt = true ∨ req.maxAge > 0)

/-- The consent screen is the last thing that happens. -/
def ConsentEnd (clnt : Client) (req : Request) (t : List Event) (o : Outcome Bool) : Prop :=
  MayInteract clnt req ∧ o = .ok true ∧ ∃ t0, t = t0 ++ [⟨.showConsentScreen clnt req, true⟩] ∧
    Inert t0 ∧ Passed req t0

/-- The request is completed without asking. -/
def CompleteEnd (policy : Policy) (lib : Lib) (clnt : Client) (req : Request) (t : List Event)
    (o : Outcome Bool) : Prop :=
  ∃ t1 t2 info, t = t1 ++ t2 ∧ Inert t1 ∧ Covered policy req info t1 ∧
    (NonePath lib clnt req t1 ∨
      (MayInteract clnt req ∧ Prompt.includeConsent req.prompt = false ∧
        clnt.noConsentPromptPolicy = .omitConsentIfCan ∧ Passed req t1)) ∧
    Completion policy lib req.responseMode (some info) req t2 o ∧
    ∃ r, Runs (complete policy lib r req.responseMode (some info) req) t2 o

/-- Every way the decision phase can end. -/
def Decision (policy : Policy) (lib : Lib) (clnt : Client) (req : Request) (t : List Event)
    (o : Outcome Bool) : Prop :=
  ErrorEnd lib clnt req t o ∨ LoginEnd clnt req t o ∨ ConsentEnd clnt req t o ∨
    CompleteEnd policy lib clnt req t o

section
variable {policy : Policy} {lib : Lib} {r : Req} {clnt : Client} {req : Request} {α : Type}
  {Ok : List Event → α → Prop}

abbrev Rej (lib : Lib) (req : Request) := Rejected lib req.responseMode req.redirectURI req.state decisionErrors

theorem decision_of_rej {t0 t o} (hi : Inert t0) (h : Rej lib req t o) :
    Decision policy lib clnt req (t0 ++ t) o :=
  .inl ⟨[], t0 ++ t, rfl, rejected_prepend hi h, .inl rfl, .inl rfl⟩

theorem passed_mono {t t'} (h : Passed req t) (hs : ∀ e ∈ t, e ∈ t') : Passed req t' := by
  obtain ⟨h1, h2, h3⟩ := h
  refine ⟨fun h => hs _ (h1 h), fun h => hs _ (h2 h), fun h => ?_⟩
  obtain ⟨a, n, ha, hn, hl⟩ := h3 h
  exact ⟨a, n, hs _ ha, hs _ hn, hl⟩

theorem nonePath_mono {t t'} (h : NonePath lib clnt req t) (hs : ∀ e ∈ t, e ∈ t') : NonePath lib clnt req t' := by
  obtain ⟨hp, ⟨h1, h2⟩ | ⟨h1, h2, h3, h4⟩ | ⟨h1, sub, ⟨h2, tk, now, h3, h4, h5⟩, h6⟩⟩ := h
  · exact ⟨hp, .inl ⟨h1, hs _ h2⟩⟩
  · exact ⟨hp, .inr (.inl ⟨h1, h2, hs _ h3, hs _ h4⟩)⟩
  · exact ⟨hp, .inr (.inr ⟨h1, sub, ⟨h2, tk, now, h3, hs _ h4, h5⟩, hs _ h6⟩)⟩

/-- `return a.complete(...)` after `t0`. -/
theorem ah_finish {t0 : List Event} {info : AuthInfo} (hi : Inert t0) (hc : Covered policy req info t0)
    (hp : NonePath lib clnt req t0 ∨
      (MayInteract clnt req ∧ Prompt.includeConsent req.prompt = false ∧
        clnt.noConsentPromptPolicy = .omitConsentIfCan ∧ Passed req t0)) :
    AH (finish policy lib r info req : AuthM α) Ok (fun t o => Decision policy lib clnt req (t0 ++ t) o) := by
  unfold finish
  refine ah_bind (Ok := fun t b => Runs (complete policy lib r req.responseMode (some info) req) t (.ok b))
    (ah_lift (fun t a h => h) (fun t h => ?_)) ?_
  · exact .inr (.inr (.inr ⟨t0, t, info, rfl, hi, hc, hp, complete_runs h, r, h⟩))
  · intro t1 b h
    refine ah_throw ?_
    rw [List.append_nil]
    exact .inr (.inr (.inr ⟨t0, t1, info, rfl, hi, hc, hp, complete_runs h, r, h⟩))

theorem ah_errorTo_dec {t0 typ desc} (hi : Inert t0) (ht : typ ∈ decisionErrors) :
    AH (errorTo lib r req.responseMode req.redirectURI typ desc req.state : AuthM α) Ok
      (fun t o => Decision policy lib clnt req (t0 ++ t) o) :=
  ah_conseq (ah_errorTo (Ok := fun _ _ => False) ht) (fun _ _ h => h.elim)
    (fun _ _ h => decision_of_rej hi h)

theorem ah_callbackFailed_dec {t0 m} (hi : Inert t0) :
    AH (callbackFailed lib r req.responseMode req.redirectURI req.state m : AuthM α) Ok
      (fun t o => Decision policy lib clnt req (t0 ++ t) o) :=
  ah_conseq (ah_callbackFailed (Ok := fun _ _ => False) (types := decisionErrors) (by decide +kernel))
    (fun _ _ h => h.elim) (fun _ _ h => decision_of_rej hi h)

/-- Ask an inert question: it joins the prefix. -/
theorem ah_ask_pre {q : Query} {f : q.Resp → AuthM α} {t0 : List Event} {D : List Event → Outcome Bool → Prop}
    {P : List Event → α → Prop}
    (hf : ∀ x, AH (f x) (fun t a => P ((t0 ++ [⟨q, x⟩]) ++ t) a) (fun t o => D ((t0 ++ [⟨q, x⟩]) ++ t) o)) :
    AH (aask q >>= f) (fun t a => P (t0 ++ t) a) (fun t o => D (t0 ++ t) o) := by
  refine ah_ask_bind fun x => ?_
  refine ah_conseq (hf x) ?_ ?_
  · intro t a h; simpa using h
  · intro t o h; simpa using h

theorem ah_log_pre {lv ev ps} {f : Unit → AuthM α} {t0 : List Event} {D : List Event → Outcome Bool → Prop}
    {P : List Event → α → Prop}
    (hf : ∀ e : Event, Query.isInert e.q = true →
      AH (f ()) (fun t a => P ((t0 ++ [e]) ++ t) a) (fun t o => D ((t0 ++ [e]) ++ t) o)) :
    AH (alog lv r ev ps >>= f) (fun t a => P (t0 ++ t) a) (fun t o => D (t0 ++ t) o) :=
  ah_ask_pre fun _ => hf _ rfl

theorem inert_snoc {t0 : List Event} {e : Event} (h : Inert t0) (he : Query.isInert e.q = true) :
    Inert (t0 ++ [e]) := inert_append.2 ⟨h, inert_cons.2 ⟨he, inert_nil⟩⟩

theorem ah_pure_pre {a : α} {t0 : List Event} {D : List Event → Outcome Bool → Prop}
    {P : List Event → α → Prop} (h : P t0 a) :
    AH (pure a : AuthM α) (fun t a => P (t0 ++ t) a) (fun t o => D (t0 ++ t) o) :=
  ah_pure (by simpa using h)

/-- Sequencing under a prefix. -/
theorem ah_bind_pre {β : Type} {p : AuthM α} {f : α → AuthM β} {t0 : List Event}
    {D : List Event → Outcome Bool → Prop} {P : List Event → α → Prop} {Q : List Event → β → Prop}
    (h : AH p (fun t a => P (t0 ++ t) a) (fun t o => D (t0 ++ t) o))
    (hf : ∀ t1 a, P t1 a → AH (f a) (fun t b => Q (t1 ++ t) b) (fun t o => D (t1 ++ t) o)) :
    AH (p >>= f) (fun t b => Q (t0 ++ t) b) (fun t o => D (t0 ++ t) o) := by
  refine ah_bind h fun t1 a ha => ah_conseq (hf _ a ha) ?_ ?_
  · intro t b h; simpa using h
  · intro t o h; simpa using h

/-- The Decision with the run's prefix. -/
abbrev Dec (policy : Policy) (lib : Lib) (clnt : Client) (req : Request) := Decision policy lib clnt req

theorem mem_pre {t0 : List Event} {e e' : Event} (h : e ∈ t0) : e ∈ t0 ++ [e'] :=
  List.mem_append_left _ h

theorem ah_consentCovers {t0 : List Event} {info : AuthInfo} {uid : Int64}
    (hi : Inert t0) (hu : ⟨.getLoginUserId, some uid⟩ ∈ t0)
    (hf : ⟨.findAuthInfoByUserIdAndClientId uid req.clientId, (some info, none)⟩ ∈ t0) :
    AH (consentCovers policy info req)
      (fun t b => Inert (t0 ++ t) ∧ (∀ e ∈ t0, e ∈ t0 ++ t) ∧ (b = true → Covered policy req info (t0 ++ t)))
      (fun t o => Dec policy lib clnt req (t0 ++ t) o) := by
  unfold consentCovers
  split
  · rename_i hc
    refine ah_ask_pre (P := fun t b => Inert t ∧ (∀ e ∈ t0, e ∈ t) ∧ (b = true → Covered policy req info t))
      (D := Dec policy lib clnt req) fun now => ?_
    refine ah_pure_pre (P := fun t b => Inert t ∧ (∀ e ∈ t0, e ∈ t) ∧ (b = true → Covered policy req info t)) ?_
    refine ⟨inert_snoc hi rfl, fun e he => mem_pre he, fun hb => ?_⟩
    exact ⟨uid, now, mem_pre hu, mem_pre hf, hc.1, hc.2, by simp, of_decide_eq_true hb⟩
  · refine ah_pure_pre (P := fun t b => Inert t ∧ (∀ e ∈ t0, e ∈ t) ∧ (b = true → Covered policy req info t)) ?_
    exact ⟨hi, fun _ h => h, fun h => by cases h⟩

theorem ah_noneComplete {t0 : List Event} (hi : Inert t0) (hn : NonePath lib clnt req t0) :
    AH (noneComplete policy lib r req : AuthM α) (fun _ _ => False)
      (fun t o => Dec policy lib clnt req (t0 ++ t) o) := by
  unfold noneComplete
  refine ah_ask_pre (P := fun _ _ => False) (D := Dec policy lib clnt req) fun x => ?_
  cases x with
  | none => exact ah_callbackFailed_dec (inert_snoc hi rfl)
  | some uid =>
    refine ah_ask_pre (P := fun _ _ => False) (D := Dec policy lib clnt req) fun x => ?_
    have hi' : ∀ {x : Query.Resp (.findAuthInfoByUserIdAndClientId uid req.clientId)},
        Inert ((t0 ++ [⟨.getLoginUserId, some uid⟩]) ++ [⟨.findAuthInfoByUserIdAndClientId uid req.clientId, x⟩]) :=
      inert_snoc (inert_snoc hi rfl) rfl
    rcases x with ⟨_ | info, _ | _ | _ | _ | n⟩
    · exact ah_errorTo_dec hi' (by decide +kernel)
    · exact ah_errorTo_dec hi' (by decide +kernel)
    · exact ah_errorTo_dec hi' (by decide +kernel)
    · exact ah_errorTo_dec hi' (by decide +kernel)
    · exact ah_errorTo_dec hi' (by decide +kernel)
    · refine ah_bind_pre (P := fun t b => Inert t ∧ (∀ e ∈ t0, e ∈ t) ∧ (b = true → Covered policy req info t))
        (Q := fun _ _ => False) (D := Dec policy lib clnt req) ?_ ?_
      · refine ah_conseq (ah_consentCovers (lib := lib) (clnt := clnt) (uid := uid) (info := info) hi' (by simp) (by simp)) ?_ (fun _ _ h => h)
        intro t b ⟨h1, h2, h3⟩
        exact ⟨h1, fun e he => h2 e (by simp [he]), h3⟩
      · intro t1 b ⟨h1, h2, h3⟩
        cases b with
        | true => exact ah_finish h1 (h3 rfl) (.inl (nonePath_mono hn h2))
        | false => exact ah_errorTo_dec h1 (by decide +kernel)
    · exact ah_errorTo_dec hi' (by decide +kernel)
    · exact ah_errorTo_dec hi' (by decide +kernel)
    · exact ah_errorTo_dec hi' (by decide +kernel)
    · exact ah_errorTo_dec hi' (by decide +kernel)

theorem ah_requireLogin {t0 : List Event} (hi : Inert t0) :
    AH (requireLogin lib r req)
      (fun t _ => Inert (t0 ++ t) ∧ (∀ e ∈ t0, e ∈ t0 ++ t) ∧ ⟨.confirmLoginSession, some true⟩ ∈ t0 ++ t)
      (fun t o => Dec policy lib clnt req (t0 ++ t) o) := by
  unfold requireLogin
  refine ah_ask_pre (P := fun t _ => Inert t ∧ (∀ e ∈ t0, e ∈ t) ∧ ⟨.confirmLoginSession, some true⟩ ∈ t)
    (D := Dec policy lib clnt req) fun x => ?_
  rcases x with _ | _ | _
  · exact ah_callbackFailed_dec (inert_snoc hi rfl)
  · exact ah_errorTo_dec (inert_snoc hi rfl) (by decide +kernel)
  · refine ah_pure_pre (P := fun t _ => Inert t ∧ (∀ e ∈ t0, e ∈ t) ∧ ⟨.confirmLoginSession, some true⟩ ∈ t) ?_
    exact ⟨inert_snoc hi rfl, fun e he => mem_pre he, by simp⟩

theorem ah_requireMatch {t0 : List Event} {sub desc : GoStr} (hi : Inert t0) :
    AH (requireMatch lib r req sub desc)
      (fun t _ => Inert (t0 ++ t) ∧ (∀ e ∈ t0, e ∈ t0 ++ t) ∧
        ⟨.loginUserIsMatchedToSubject sub, some true⟩ ∈ t0 ++ t)
      (fun t o => Dec policy lib clnt req (t0 ++ t) o) := by
  unfold requireMatch
  refine ah_ask_pre (P := fun t _ => Inert t ∧ (∀ e ∈ t0, e ∈ t) ∧
      ⟨.loginUserIsMatchedToSubject sub, some true⟩ ∈ t) (D := Dec policy lib clnt req) fun x => ?_
  rcases x with _ | _ | _
  · exact ah_callbackFailed_dec (inert_snoc hi rfl)
  · exact ah_errorTo_dec (inert_snoc hi rfl) (by decide +kernel)
  · refine ah_pure_pre (P := fun t _ => Inert t ∧ (∀ e ∈ t0, e ∈ t) ∧
      ⟨.loginUserIsMatchedToSubject sub, some true⟩ ∈ t) ?_
    exact ⟨inert_snoc hi rfl, fun e he => mem_pre he, by simp⟩

/-- Runs of the library's verification of a hint. -/
theorem hintParse_runs {hint : GoStr} {t o} (h : Runs (Jwt.parse lib hint () (hintKeyFunc clnt)) t o) :
    Inert t ∧ ((∃ tk e, o = .ok (tk, some e, ())) ∨
      ∃ tk now, o = .ok (some tk, none, ()) ∧ lib.jwtDecode hint = some tk ∧ t = [⟨.wallNow, now⟩] ∧
        Jwt.verifies lib (tk.alg.getD []) hint (clnt.idTokenKey.getD (.other [])) = true ∧
        Jwt.expOk now (tk.claim b!"exp") = true) := by
  unfold Jwt.parse at h
  cases hd : lib.jwtDecode hint with
  | none =>
    rw [hd] at h
    obtain ⟨rfl, rfl⟩ := h
    exact ⟨inert_nil, .inl ⟨_, _, rfl⟩⟩
  | some tk =>
    rw [hd] at h
    dsimp only at h
    cases hf : tk.alg.bind Jwt.family with
    | none =>
      rw [hf] at h
      obtain ⟨rfl, rfl⟩ := h
      exact ⟨inert_nil, .inl ⟨_, _, rfl⟩⟩
    | some fam =>
      rw [hf] at h
      dsimp only at h
      unfold hintKeyFunc at h
      replace h : Runs ((ask .wallNow).bind _) t o := h
      replace h := runs_bind_ask.1 h
      obtain ⟨now, t1, rfl, h⟩ := h
      dsimp only at h
      obtain ⟨rfl, rfl⟩ := h
      refine ⟨inert_cons.2 ⟨rfl, inert_nil⟩, ?_⟩
      cases hv : Jwt.verifies lib (tk.alg.getD []) hint (clnt.idTokenKey.getD (.other [])) with
      | false => exact .inl ⟨some tk, _, by simp [Jwt.VErr.none?, hv]; rfl⟩
      | true =>
        cases he : Jwt.expOk now (tk.claim b!"exp") with
        | false => exact .inl ⟨some tk, _, by simp [Jwt.VErr.none?, hv, he]; rfl⟩
        | true =>
          split
          · exact .inr ⟨tk, now, rfl, rfl, rfl, hv, he⟩
          · exact .inl ⟨some tk, _, rfl⟩

theorem ah_checkIdTokenHint {t0 : List Event} (hi : Inert t0) :
    AH (checkIdTokenHint lib r clnt req)
      (fun t sub => Inert (t0 ++ t) ∧ HintAccepted lib clnt req.idTokenHint sub (t0 ++ t))
      (fun t o => Dec policy lib clnt req (t0 ++ t) o) := by
  unfold checkIdTokenHint
  dsimp only
  split
  · exact ah_errorTo_dec hi (by decide +kernel)
  · rename_i hne
    refine ah_bind_pre (D := Dec policy lib clnt req)
      (P := fun t (x : Option JwtToken × Option Jwt.VErr × Unit) => Inert t ∧ ((∃ tk e, x = (tk, some e, ())) ∨
        ∃ tk now, x = (some tk, none, ()) ∧ lib.jwtDecode req.idTokenHint = some tk ∧ ⟨.wallNow, now⟩ ∈ t ∧
        Jwt.verifies lib (tk.alg.getD []) req.idTokenHint (clnt.idTokenKey.getD (.other [])) = true ∧
        Jwt.expOk now (tk.claim b!"exp") = true))
      (Q := fun t sub => Inert t ∧ HintAccepted lib clnt req.idTokenHint sub t) (ah_lift ?_ ?_) ?_
    · intro t a h
      obtain ⟨h1, ⟨tk, e, h2⟩ | ⟨tk, now, h2, h3, rfl, h4⟩⟩ := hintParse_runs h
      · injection h2 with h2
        exact ⟨inert_append.2 ⟨hi, h1⟩, .inl ⟨tk, e, h2⟩⟩
      · injection h2 with h2
        exact ⟨inert_append.2 ⟨hi, h1⟩, .inr ⟨tk, now, h2, h3, by simp, h4⟩⟩
    · intro t h
      obtain ⟨h1, ⟨tk, e, h2⟩ | ⟨tk, now, h2, _⟩⟩ := hintParse_runs h <;> cases h2
    · rintro t1 a ⟨h1, ⟨tk, e, rfl⟩ | ⟨tk, now, rfl, h2, h3, h4, h5⟩⟩
      · exact ah_errorTo_dec h1 (by decide +kernel)
      · dsimp only
        split
        · exact ah_errorTo_dec h1 (by decide +kernel)
        · rename_i n hnum
          split
          · exact ah_errorTo_dec h1 (by decide +kernel)
          · rename_i sub hsub
            exact ah_pure_pre (P := fun t sub => Inert t ∧ HintAccepted lib clnt req.idTokenHint sub t)
              ⟨h1, hne, tk, now, h2, h3, h4, h5, by rw [hnum]; rfl, hsub⟩

theorem ah_promptNone {t0 : List Event} (hi : Inert t0) (hp : req.prompt = Prompt.pNone) :
    AH (promptNone policy lib r clnt req)
      (fun t _ => Inert (t0 ++ t) ∧ MayInteract clnt req)
      (fun t o => Dec policy lib clnt req (t0 ++ t) o) := by
  unfold promptNone
  split
  · refine ah_log_pre (P := fun t _ => Inert t ∧ MayInteract clnt req) (D := Dec policy lib clnt req) fun e he => ?_
    exact ah_errorTo_dec (inert_snoc hi he) (by decide +kernel)
  · rename_i hpol
    refine ah_bind_pre (D := Dec policy lib clnt req)
      (P := fun t _ => Inert t ∧ (∀ e ∈ t0, e ∈ t) ∧ ⟨.confirmLoginSession, some true⟩ ∈ t)
      (Q := fun t _ => Inert t ∧ MayInteract clnt req) (ah_requireLogin hi) ?_
    rintro t1 _ ⟨h1, _, h2⟩
    exact ah_conseq (ah_noneComplete h1 ⟨hp, .inl ⟨hpol, h2⟩⟩) (fun _ _ h => h.elim) (fun _ _ h => h)
  · rename_i hpol
    split
    · exact ah_errorTo_dec hi (by decide +kernel)
    · rename_i hne
      refine ah_bind_pre (D := Dec policy lib clnt req)
        (P := fun t _ => Inert t ∧ (∀ e ∈ t0, e ∈ t) ∧ ⟨.confirmLoginSession, some true⟩ ∈ t)
        (Q := fun t _ => Inert t ∧ MayInteract clnt req) (ah_requireLogin hi) ?_
      rintro t1 _ ⟨h1, _, h2⟩
      refine ah_bind_pre (D := Dec policy lib clnt req)
        (P := fun t _ => Inert t ∧ (∀ e ∈ t1, e ∈ t) ∧ ⟨.loginUserIsMatchedToSubject req.loginHint, some true⟩ ∈ t)
        (Q := fun t _ => Inert t ∧ MayInteract clnt req) (ah_requireMatch h1) ?_
      rintro t2 _ ⟨h3, h4, h5⟩
      exact ah_conseq (ah_noneComplete h3 ⟨hp, .inr (.inl ⟨hpol, hne, h4 _ h2, h5⟩)⟩)
        (fun _ _ h => h.elim) (fun _ _ h => h)
  · rename_i hpol
    refine ah_bind_pre (D := Dec policy lib clnt req)
      (P := fun t sub => Inert t ∧ HintAccepted lib clnt req.idTokenHint sub t)
      (Q := fun t _ => Inert t ∧ MayInteract clnt req) (ah_checkIdTokenHint hi) ?_
    rintro t1 sub ⟨h1, h2⟩
    refine ah_bind_pre (D := Dec policy lib clnt req)
      (P := fun t _ => Inert t ∧ (∀ e ∈ t1, e ∈ t) ∧ ⟨.loginUserIsMatchedToSubject sub, some true⟩ ∈ t)
      (Q := fun t _ => Inert t ∧ MayInteract clnt req) (ah_requireMatch h1) ?_
    rintro t2 _ ⟨h3, h4, h5⟩
    obtain ⟨hh1, tk, now, hh2, hh3, hh4⟩ := h2
    exact ah_conseq (ah_noneComplete h3 ⟨hp, .inr (.inr ⟨hpol, sub, ⟨hh1, tk, now, hh2, h4 _ hh3, hh4⟩, h5⟩)⟩)
        (fun _ _ h => h.elim) (fun _ _ h => h)
  · rename_i hpol
    exact ah_pure_pre (P := fun t _ => Inert t ∧ MayInteract clnt req) ⟨hi, .inr hpol⟩

theorem ah_confirmLogin {t0 : List Event} (hi : Inert t0) (hp : req.prompt ≠ Prompt.pNone) :
    AH (confirmLogin lib r req)
      (fun t _ => Inert (t0 ++ t) ∧ ⟨.confirmLoginSession, some true⟩ ∈ t0 ++ t)
      (fun t o => Dec policy lib clnt req (t0 ++ t) o) := by
  unfold confirmLogin
  refine ah_ask_pre (P := fun t _ => Inert t ∧ ⟨.confirmLoginSession, some true⟩ ∈ t)
    (D := Dec policy lib clnt req) fun x => ?_
  rcases x with _ | _ | _
  · exact ah_callbackFailed_dec (inert_snoc hi rfl)
  · refine ah_log_pre (P := fun t _ => Inert t ∧ ⟨.confirmLoginSession, some true⟩ ∈ t)
      (D := Dec policy lib clnt req) fun e he => ?_
    have hi' : Inert ((t0 ++ [⟨.confirmLoginSession, some false⟩]) ++ [e]) := inert_snoc (inert_snoc hi rfl) he
    generalize (t0 ++ [⟨.confirmLoginSession, some false⟩]) ++ [e] = t1 at hi'
    refine ah_ask_bind fun b => ?_
    cases b with
    | false =>
      refine ah_conseq (ah_callbackFailed (Ok := fun _ _ => False) (types := [b!"server_error"]) (by simp))
        (fun _ _ h => h.elim) ?_
      intro t o h
      exact .inl ⟨t1 ++ [⟨.showLoginScreen req, false⟩], t, by simp, rejected_mono (by decide +kernel) h, .inr h, .inr (.inl ⟨.inl hp, t1, hi', rfl⟩)⟩
    | true =>
      exact ah_throw (.inr (.inl ⟨.inl hp, rfl, t1, true, rfl, hi', .inl rfl⟩))
  · refine ah_pure_pre (P := fun t _ => Inert t ∧ ⟨.confirmLoginSession, some true⟩ ∈ t) ?_
    exact ⟨inert_snoc hi rfl, by simp⟩

theorem ah_promptLogin {t0 : List Event} (hi : Inert t0) (hm : MayInteract clnt req) :
    AH (promptLogin lib r req)
      (fun t _ => Inert (t0 ++ t) ∧ (∀ e ∈ t0, e ∈ t0 ++ t) ∧
        (Prompt.includeLogin req.prompt = true → ⟨.requestIsFromLogin, some true⟩ ∈ t0 ++ t))
      (fun t o => Dec policy lib clnt req (t0 ++ t) o) := by
  unfold promptLogin
  split
  · rename_i hl
    refine ah_ask_pre (P := fun t _ => Inert t ∧ (∀ e ∈ t0, e ∈ t) ∧
        (Prompt.includeLogin req.prompt = true → ⟨.requestIsFromLogin, some true⟩ ∈ t))
      (D := Dec policy lib clnt req) fun x => ?_
    rcases x with _ | _ | _
    · exact ah_callbackFailed_dec (inert_snoc hi rfl)
    · refine ah_log_pre (P := fun t _ => Inert t ∧ (∀ e ∈ t0, e ∈ t) ∧
        (Prompt.includeLogin req.prompt = true → ⟨.requestIsFromLogin, some true⟩ ∈ t))
        (D := Dec policy lib clnt req) fun e he => ?_
      have hi' : Inert ((t0 ++ [⟨.requestIsFromLogin, some false⟩]) ++ [e]) := inert_snoc (inert_snoc hi rfl) he
      generalize (t0 ++ [⟨.requestIsFromLogin, some false⟩]) ++ [e] = t1 at hi'
      refine ah_ask_bind fun b => ?_
      exact ah_throw (.inr (.inl ⟨hm, rfl, t1, b, rfl, hi', .inr (.inl hl)⟩))
    · refine ah_pure_pre (P := fun t _ => Inert t ∧ (∀ e ∈ t0, e ∈ t) ∧
        (Prompt.includeLogin req.prompt = true → ⟨.requestIsFromLogin, some true⟩ ∈ t)) ?_
      exact ⟨inert_snoc hi rfl, fun e he => mem_pre he, fun _ => by simp⟩
  · rename_i hl
    exact ah_pure_pre (P := fun t _ => Inert t ∧ (∀ e ∈ t0, e ∈ t) ∧
        (Prompt.includeLogin req.prompt = true → ⟨.requestIsFromLogin, some true⟩ ∈ t))
        ⟨hi, fun _ h => h, fun h => absurd h hl⟩

theorem ah_checkAuthAge {t0 : List Event} (hi : Inert t0) (hm : MayInteract clnt req) :
    AH (checkAuthAge lib r req)
      (fun t _ => Inert (t0 ++ t) ∧ (∀ e ∈ t0, e ∈ t0 ++ t) ∧
        (req.maxAge > 0 → ∃ at_ now, ⟨.getAuthTime, some at_⟩ ∈ t0 ++ t ∧ ⟨.now, now⟩ ∈ t0 ++ t ∧
          ¬ req.maxAge < now - at_))
      (fun t o => Dec policy lib clnt req (t0 ++ t) o) := by
  unfold checkAuthAge
  refine ah_ask_pre (P := fun t _ => Inert t ∧ (∀ e ∈ t0, e ∈ t) ∧
        (req.maxAge > 0 → ∃ at_ now, ⟨.getAuthTime, some at_⟩ ∈ t ∧ ⟨.now, now⟩ ∈ t ∧
          ¬ req.maxAge < now - at_)) (D := Dec policy lib clnt req) fun x => ?_
  rcases x with _ | at_
  · exact ah_callbackFailed_dec (inert_snoc hi rfl)
  · dsimp only
    split
    · rename_i hpos
      refine ah_ask_pre (P := fun t _ => Inert t ∧ (∀ e ∈ t0, e ∈ t) ∧
        (req.maxAge > 0 → ∃ at_ now, ⟨.getAuthTime, some at_⟩ ∈ t ∧ ⟨.now, now⟩ ∈ t ∧
          ¬ req.maxAge < now - at_)) (D := Dec policy lib clnt req) fun now => ?_
      split
      · refine ah_log_pre (P := fun t _ => Inert t ∧ (∀ e ∈ t0, e ∈ t) ∧
          (req.maxAge > 0 → ∃ at_ now, ⟨.getAuthTime, some at_⟩ ∈ t ∧ ⟨.now, now⟩ ∈ t ∧
          ¬ req.maxAge < now - at_)) (D := Dec policy lib clnt req) fun e he => ?_
        have hi' := inert_snoc (inert_snoc (inert_snoc hi (e := ⟨.getAuthTime, some at_⟩) rfl) (e := ⟨.now, now⟩) rfl) he
        generalize (t0 ++ [⟨.getAuthTime, some at_⟩] ++ [⟨.now, now⟩]) ++ [e] = t1 at hi'
        refine ah_ask_bind fun b => ?_
        exact ah_throw (.inr (.inl ⟨hm, rfl, t1, b, rfl, hi', .inr (.inr hpos)⟩))
      · rename_i hage
        refine ah_pure_pre (P := fun t _ => Inert t ∧ (∀ e ∈ t0, e ∈ t) ∧
          (req.maxAge > 0 → ∃ at_ now, ⟨.getAuthTime, some at_⟩ ∈ t ∧ ⟨.now, now⟩ ∈ t ∧
          ¬ req.maxAge < now - at_)) ?_
        exact ⟨inert_snoc (inert_snoc hi rfl) rfl, fun e he => mem_pre (mem_pre he), fun _ => ⟨at_, now, by simp, by simp, hage⟩⟩
    · rename_i hpos
      refine ah_pure_pre (P := fun t _ => Inert t ∧ (∀ e ∈ t0, e ∈ t) ∧
          (req.maxAge > 0 → ∃ at_ now, ⟨.getAuthTime, some at_⟩ ∈ t ∧ ⟨.now, now⟩ ∈ t ∧
          ¬ req.maxAge < now - at_)) ?_
      exact ⟨inert_snoc hi rfl, fun e he => mem_pre he, fun h => absurd h hpos⟩

theorem ah_omitConsent {t0 : List Event} (hi : Inert t0) (hm : MayInteract clnt req) (hp : Passed req t0) :
    AH (omitConsent policy lib r clnt req)
      (fun t _ => Inert (t0 ++ t) ∧ (∀ e ∈ t0, e ∈ t0 ++ t))
      (fun t o => Dec policy lib clnt req (t0 ++ t) o) := by
  have hpure : ∀ {t1}, Inert t1 → (∀ e ∈ t0, e ∈ t1) → AH (pure () : AuthM Unit)
      (fun t _ => Inert (t1 ++ t) ∧ (∀ e ∈ t0, e ∈ t1 ++ t)) (fun t o => Dec policy lib clnt req (t1 ++ t) o) :=
    fun h1 h2 => ah_pure_pre (P := fun t _ => Inert t ∧ (∀ e ∈ t0, e ∈ t)) ⟨h1, h2⟩
  unfold omitConsent
  split
  · exact hpure hi fun _ h => h
  · rename_i hcon
    split
    · rename_i hpol
      refine ah_ask_pre (P := fun t _ => Inert t ∧ (∀ e ∈ t0, e ∈ t)) (D := Dec policy lib clnt req) fun x => ?_
      cases x with
      | none => exact ah_callbackFailed_dec (inert_snoc hi rfl)
      | some uid =>
        refine ah_ask_pre (P := fun t _ => Inert t ∧ (∀ e ∈ t0, e ∈ t)) (D := Dec policy lib clnt req) fun x => ?_
        have hi' : ∀ {x : Query.Resp (.findAuthInfoByUserIdAndClientId uid req.clientId)},
          Inert ((t0 ++ [⟨.getLoginUserId, some uid⟩]) ++ [⟨.findAuthInfoByUserIdAndClientId uid req.clientId, x⟩]) :=
          inert_snoc (inert_snoc hi rfl) rfl
        rcases x with ⟨_ | info, _ | _ | _ | _ | n⟩
        · exact ah_errorTo_dec hi' (by decide +kernel)
        · exact ah_errorTo_dec hi' (by decide +kernel)
        · exact ah_errorTo_dec hi' (by decide +kernel)
        · exact hpure hi' fun e he => mem_pre (mem_pre he)
        · exact hpure hi' fun e he => mem_pre (mem_pre he)
        · refine ah_bind_pre (P := fun t b => Inert t ∧ (∀ e ∈ t0, e ∈ t) ∧ (b = true → Covered policy req info t))
            (Q := fun t _ => Inert t ∧ (∀ e ∈ t0, e ∈ t)) (D := Dec policy lib clnt req) ?_ ?_
          · refine ah_conseq (ah_consentCovers (lib := lib) (clnt := clnt) (uid := uid) (info := info) hi' (by simp) (by simp)) ?_ (fun _ _ h => h)
            intro t b ⟨h1, h2, h3⟩
            exact ⟨h1, fun e he => h2 e (by simp [he]), h3⟩
          · intro t1 b ⟨h1, h2, h3⟩
            cases b with
            | true =>
              exact ah_finish h1 (h3 rfl) (.inr ⟨hm, by simpa using hcon, hpol, passed_mono hp h2⟩)
            | false => exact hpure h1 h2
        · exact ah_errorTo_dec hi' (by decide +kernel)
        · exact ah_errorTo_dec hi' (by decide +kernel)
        · exact hpure hi' fun e he => mem_pre (mem_pre he)
        · exact hpure hi' fun e he => mem_pre (mem_pre he)
    · exact hpure hi fun _ h => h
    · exact hpure hi fun _ h => h

theorem ah_showConsent {t0 : List Event} (hi : Inert t0) (hm : MayInteract clnt req) (hp : Passed req t0) :
    AH (showConsent lib r clnt req) (fun t b => Dec policy lib clnt req (t0 ++ t) (.ok b))
      (fun t o => Dec policy lib clnt req (t0 ++ t) o) := by
  unfold showConsent
  refine ah_ask_bind fun b => ?_
  cases b with
  | false =>
    refine ah_conseq (ah_callbackFailed (Ok := fun _ _ => False) (types := [b!"server_error"]) (by simp))
      (fun _ _ h => h.elim) ?_
    intro t o h
    exact .inl ⟨t0 ++ [⟨.showConsentScreen clnt req, false⟩], t, by simp, rejected_mono (by decide +kernel) h, .inr h, .inr (.inr ⟨hm, t0, hi, hp, rfl⟩)⟩
  | true => exact ah_pure (.inr (.inr (.inl ⟨hm, rfl, t0, rfl, hi, hp⟩)))

/-- The decision phase as a whole. -/
def decide_ (policy : Policy) (lib : Lib) (r : Req) (clnt : Client) (req : Request) : AuthM Bool := do
  if req.prompt = Prompt.pNone then promptNone policy lib r clnt req
  else confirmLogin lib r req
  promptLogin lib r req
  checkAuthAge lib r req
  omitConsent policy lib r clnt req
  showConsent lib r clnt req

theorem ah_decide : AH (decide_ policy lib r clnt req) (fun t b => Decision policy lib clnt req t (.ok b))
    (Decision policy lib clnt req) := by
  have key : AH (decide_ policy lib r clnt req) (fun t b => Dec policy lib clnt req ([] ++ t) (.ok b))
      (fun t o => Dec policy lib clnt req ([] ++ t) o) := by
    unfold decide_
    have tail : ∀ t1 : List Event, Inert t1 → MayInteract clnt req →
        (req.prompt ≠ Prompt.pNone → ⟨.confirmLoginSession, some true⟩ ∈ t1) →
        AH (do promptLogin lib r req
               checkAuthAge lib r req
               omitConsent policy lib r clnt req
               showConsent lib r clnt req) (fun t b => Dec policy lib clnt req (t1 ++ t) (.ok b))
          (fun t o => Dec policy lib clnt req (t1 ++ t) o) := by
      intro t1 h1 hm hl
      refine ah_bind_pre (D := Dec policy lib clnt req) (Q := fun t b => Dec policy lib clnt req t (.ok b))
        (P := fun t _ => Inert t ∧ (∀ e ∈ t1, e ∈ t) ∧
          (Prompt.includeLogin req.prompt = true → ⟨.requestIsFromLogin, some true⟩ ∈ t)) (ah_promptLogin h1 hm) ?_
      rintro t2 _ ⟨h2, h2', h2''⟩
      refine ah_bind_pre (D := Dec policy lib clnt req) (Q := fun t b => Dec policy lib clnt req t (.ok b))
        (P := fun t _ => Inert t ∧ (∀ e ∈ t2, e ∈ t) ∧
          (req.maxAge > 0 → ∃ at_ now, ⟨.getAuthTime, some at_⟩ ∈ t ∧ ⟨.now, now⟩ ∈ t ∧
            ¬ req.maxAge < now - at_)) (ah_checkAuthAge h2 hm) ?_
      rintro t3 _ ⟨h3, h3', h3''⟩
      have hpassed : Passed req t3 := ⟨fun h => h3' _ (h2' _ (hl h)), fun h => h3' _ (h2'' h), h3''⟩
      refine ah_bind_pre (D := Dec policy lib clnt req) (Q := fun t b => Dec policy lib clnt req t (.ok b))
        (P := fun t _ => Inert t ∧ (∀ e ∈ t3, e ∈ t)) (ah_omitConsent h3 hm hpassed) ?_
      rintro t4 _ ⟨h4, h4'⟩
      exact ah_showConsent h4 hm (passed_mono hpassed h4')
    split
    · rename_i hp
      refine ah_bind_pre (t0 := []) (D := Dec policy lib clnt req) (Q := fun t b => Dec policy lib clnt req t (.ok b))
        (P := fun t _ => Inert t ∧ MayInteract clnt req) (ah_promptNone inert_nil hp) ?_
      rintro t1 _ ⟨h1, h2⟩
      exact tail t1 h1 h2 (fun h => absurd hp h)
    · rename_i hp
      refine ah_bind_pre (t0 := []) (D := Dec policy lib clnt req) (Q := fun t b => Dec policy lib clnt req t (.ok b))
        (P := fun t _ => Inert t ∧ ⟨.confirmLoginSession, some true⟩ ∈ t) (ah_confirmLogin inert_nil hp) ?_
      rintro t1 _ ⟨h1, h2⟩
      exact tail t1 h1 (.inl hp) (fun _ => h2)
  exact key

/-- Every run of `HandleRequest`. -/
def Anatomy (policy : Policy) (lib : Lib) (r : Req) (t : List Event) (o : Outcome Bool) : Prop :=
  NotIdentified r t o ∨
  (∃ clnt t1 t2, t = t1 ++ t2 ∧ Identified r clnt t1 ∧ BuildFail lib r t2 o) ∨
  (∃ clnt t1 t2 t3 f req, t = t1 ++ (t2 ++ t3) ∧ Identified r clnt t1 ∧ Inert t2 ∧ Built policy r clnt f req ∧
    Decision policy lib clnt req t3 o)

theorem ah_handleRequestM : AH (handleRequestM policy lib r) (fun t b => Anatomy policy lib r t (.ok b))
    (Anatomy policy lib r) := by
  show AH (identify r >>= fun clnt => buildRequest policy lib r clnt >>= fun req => decide_ policy lib r clnt req) _ _
  refine ah_bind (ah_conseq (ah_identify r) (fun _ _ h => h) (fun _ _ h => .inl h)) ?_
  intro t1 clnt h1
  refine ah_bind (ah_conseq ah_buildRequest (fun _ _ h => h) ?_) ?_
  · intro t2 o h2
    exact .inr (.inl ⟨clnt, t1, t2, rfl, h1, h2⟩)
  · rintro t2 req ⟨hi, f, hb⟩
    refine ah_conseq ah_decide ?_ ?_
    · intro t3 b h3
      exact .inr (.inr ⟨clnt, t1, t2, t3, f, req, rfl, h1, hi, hb, h3⟩)
    · intro t3 b h3
      exact .inr (.inr ⟨clnt, t1, t2, t3, f, req, rfl, h1, hi, hb, h3⟩)

theorem handleRequest_runs {t o} (h : Runs (handleRequest policy lib r) t o) : Anatomy policy lib r t o := by
  unfold handleRequest at h
  rw [Prog.bind_eq] at h
  rcases runs_bind.1 h with ⟨x, t1, t2, rfl, h1, h2⟩ | ⟨h1, rfl⟩
  · cases x with
    | ok b =>
      obtain ⟨rfl, rfl⟩ := h2
      rw [List.append_nil]
      exact ah_handleRequestM.ok h1
    | error b =>
      obtain ⟨rfl, rfl⟩ := h2
      rw [List.append_nil]
      exact ah_handleRequestM.err h1
  · exact ah_handleRequestM.panic h1

end
end Goidc
