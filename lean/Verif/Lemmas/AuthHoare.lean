import Verif.Lemmas.Front

/-! # Specifications of the parts of `HandleRequest` -/

namespace Goidc

open Spec AuthzEndpoint

variable {α β ε : Type}

theorem xpanic_bind' {p : ExceptT ε Prog α} {f : α → ExceptT ε Prog β} {t} :
    XPanic (p >>= f) t ↔ (∃ a t1 t2, t = t1 ++ t2 ∧ XOk p t1 a ∧ XPanic (f a) t2) ∨ XPanic p t := by
  unfold XPanic XOk
  rw [xrun_bind, runs_bind]
  constructor
  · rintro (⟨r, t1, t2, rfl, h1, h2⟩ | ⟨h, _⟩)
    · cases r with
      | ok a => exact .inl ⟨a, t1, t2, rfl, h1, h2⟩
      | error e => simp at h2
    · exact .inr h
  · rintro (⟨a, t1, t2, rfl, h1, h2⟩ | h)
    · exact .inl ⟨.ok a, t1, t2, rfl, h1, h2⟩
    · exact .inr ⟨h, rfl⟩

theorem xerr_bind' {p : ExceptT ε Prog α} {f : α → ExceptT ε Prog β} {t e} :
    XErr (p >>= f) t e ↔ (∃ a t1 t2, t = t1 ++ t2 ∧ XOk p t1 a ∧ XErr (f a) t2 e) ∨ XErr p t e := by
  unfold XErr XOk
  rw [xrun_bind, runs_bind]
  constructor
  · rintro (⟨r, t1, t2, rfl, h1, h2⟩ | ⟨_, h⟩)
    · cases r with
      | ok a => exact .inl ⟨a, t1, t2, rfl, h1, h2⟩
      | error e =>
        simp only [runs_ret, Outcome.ok.injEq, Except.error.injEq] at h2
        obtain ⟨rfl, rfl⟩ := h2
        exact .inr (by simpa using h1)
    · cases h
  · rintro (⟨a, t1, t2, rfl, h1, h2⟩ | h)
    · exact .inl ⟨.ok a, t1, t2, rfl, h1, h2⟩
    · exact .inl ⟨.error e, t, [], by simp, h, rfl, rfl⟩

/-- `p` returns values with `Ok`; a `return` of `HandleRequest` or a panic inside it satisfies `Bad`. -/
structure AH (p : AuthM α) (Ok : List Event → α → Prop) (Bad : List Event → Outcome Bool → Prop) : Prop where
  ok : ∀ {t a}, XOk p t a → Ok t a
  err : ∀ {t b}, XErr p t b → Bad t (.ok b)
  panic : ∀ {t}, XPanic p t → Bad t .panic

variable {Ok Ok' : List Event → α → Prop} {Bad Bad' : List Event → Outcome Bool → Prop}

theorem ah_conseq {p : AuthM α} (h : AH p Ok Bad) (h1 : ∀ t a, Ok t a → Ok' t a)
    (h2 : ∀ t o, Bad t o → Bad' t o) : AH p Ok' Bad' :=
  ⟨fun h' => h1 _ _ (h.ok h'), fun h' => h2 _ _ (h.err h'), fun h' => h2 _ _ (h.panic h')⟩

theorem ah_pure {a : α} (h : Ok [] a) : AH (pure a : AuthM α) Ok Bad := by
  refine ⟨fun h' => ?_, fun h' => ?_, fun h' => ?_⟩
  · obtain ⟨rfl, rfl⟩ := xok_pure.1 h'; exact h
  · exact (xerr_pure.1 h').elim
  · exact (xpanic_pure.1 h').elim

theorem ah_throw {b : Bool} (h : Bad [] (.ok b)) : AH (throw b : AuthM α) Ok Bad := by
  refine ⟨fun h' => ?_, fun h' => ?_, fun h' => ?_⟩
  · exact (xok_throw.1 h').elim
  · obtain ⟨rfl, rfl⟩ := xerr_throw.1 h'; exact h
  · exact (xpanic_throw.1 h').elim

theorem ah_bind {p : AuthM α} {f : α → AuthM β} {OkB : List Event → β → Prop}
    (h : AH p Ok Bad)
    (hf : ∀ t1 a, Ok t1 a → AH (f a) (fun t2 b => OkB (t1 ++ t2) b) (fun t2 o => Bad (t1 ++ t2) o)) :
    AH (p >>= f) OkB Bad := by
  refine ⟨fun h' => ?_, fun h' => ?_, fun h' => ?_⟩
  · obtain ⟨a, t1, t2, rfl, h1, h2⟩ := xok_bind.1 h'
    exact (hf t1 a (h.ok h1)).ok h2
  · rcases xerr_bind'.1 h' with ⟨a, t1, t2, rfl, h1, h2⟩ | h1
    · exact (hf t1 a (h.ok h1)).err h2
    · exact h.err h1
  · rcases xpanic_bind'.1 h' with ⟨a, t1, t2, rfl, h1, h2⟩ | h1
    · exact (hf t1 a (h.ok h1)).panic h2
    · exact h.panic h1

theorem ah_lift {p : Prog α} (h1 : ∀ t a, Runs p t (.ok a) → Ok t a) (h2 : ∀ t, Runs p t .panic → Bad t .panic) :
    AH (ExceptT.lift p : AuthM α) Ok Bad := by
  refine ⟨fun h' => ?_, fun h' => ?_, fun h' => ?_⟩
  · exact h1 _ _ (xok_lift.1 h')
  · exact (xerr_lift.1 h').elim
  · exact h2 _ (xpanic_lift.1 h')

theorem ah_aask {q : Query} {Ok : List Event → q.Resp → Prop} (h : ∀ r, Ok [⟨q, r⟩] r) :
    AH (aask q) Ok Bad := by
  apply ah_lift
  · intro t a h'
    replace h' := runs_ask.1 h'
    obtain ⟨r, rfl, h'⟩ := h'
    cases h'
    exact h _
  · intro t h'
    replace h' := runs_ask.1 h'
    obtain ⟨r, _, h'⟩ := h'
    cases h'

/-- Bind after a call. -/
theorem ah_ask_bind {q : Query} {f : q.Resp → AuthM β} {OkB : List Event → β → Prop}
    (hf : ∀ r, AH (f r) (fun t2 b => OkB (⟨q, r⟩ :: t2) b) (fun t2 o => Bad (⟨q, r⟩ :: t2) o)) :
    AH (aask q >>= f) OkB Bad :=
  ah_bind (Ok := fun t r => t = [⟨q, r⟩]) (ah_aask fun _ => rfl) fun t1 r h => by subst h; exact hf r

theorem ah_alog_bind {lv r ev ps} {f : Unit → AuthM β} {OkB : List Event → β → Prop}
    (hf : AH (f ()) (fun t2 b => OkB (⟨.log ⟨lv, b!"authorization_endpoint", r.path, ev, ps⟩, ()⟩ :: t2) b)
      (fun t2 o => Bad (⟨.log ⟨lv, b!"authorization_endpoint", r.path, ev, ps⟩, ()⟩ :: t2) o)) :
    AH (alog lv r ev ps >>= f) OkB Bad :=
  ah_ask_bind (q := .log ⟨lv, b!"authorization_endpoint", r.path, ev, ps⟩) fun _ => hf

theorem ah_apanic (h : Bad [] .panic) : AH (apanic : AuthM α) Ok Bad := by
  refine ⟨fun h' => ?_, fun h' => ?_, fun h' => ?_⟩
  · cases (show _ ∧ _ from h').2
  · cases (show _ ∧ _ from h').2
  · obtain ⟨rfl, _⟩ := (show _ ∧ _ from h'); exact h

/-! ## Refusals -/

theorem inert_nil : Inert [] := by simp [Inert]
theorem inert_cons {e : Event} {t} : Inert (e :: t) ↔ Query.isInert e.q = true ∧ Inert t := by simp [Inert]
theorem inert_append {s t : List Event} : Inert (s ++ t) ↔ Inert s ∧ Inert t := by
  simp only [Inert, List.mem_append]
  exact ⟨fun h => ⟨fun e he => h e (.inl he), fun e he => h e (.inr he)⟩,
    fun h e he => he.elim (h.1 e) (h.2 e)⟩

theorem inert_noWrite {t : List Event} (h : Inert t) : NoWrite t := by
  intro e he
  have := h e he
  cases e with | mk q r => cases q <;> first | rfl | simp [Query.isInert] at this

/-- The run sends an error of one of the given types to `uri` (or panics because `uri` does not parse),
after inert calls only. -/
def Rejected (lib : Lib) (mode uri state : GoStr) (types : List GoStr) (t : List Event)
    (o : Outcome Bool) : Prop :=
  ∃ t1 t2, t = t1 ++ t2 ∧ Inert t1 ∧
    ((o = .panic ∧ t2 = [] ∧ lib.urlParseOk uri = false ∧ channel mode ≠ .form) ∨
     (o = .ok false ∧ ∃ typ ∈ types, ∃ desc resp, SentTrace t2 resp ∧
        Delivers resp uri (errorResponse typ desc state) (channel mode)))

theorem rejected_prepend {lib mode uri state types t0 t o} (h : Inert t0)
    (hr : Rejected lib mode uri state types t o) : Rejected lib mode uri state types (t0 ++ t) o := by
  obtain ⟨t1, t2, rfl, hi, hc⟩ := hr
  exact ⟨t0 ++ t1, t2, by simp, inert_append.2 ⟨h, hi⟩, hc⟩

theorem rejected_cons {lib mode uri state types e t o} (h : Query.isInert e.q = true)
    (hr : Rejected lib mode uri state types t o) : Rejected lib mode uri state types (e :: t) o :=
  rejected_prepend (t0 := [e]) (inert_cons.2 ⟨h, inert_nil⟩) hr

theorem rejected_mono {lib mode uri state types types' t o} (hsub : ∀ x ∈ types, x ∈ types')
    (hr : Rejected lib mode uri state types t o) : Rejected lib mode uri state types' t o := by
  obtain ⟨t1, t2, h1, hi, hc | ⟨ho, typ, ht, hc⟩⟩ := hr
  · exact ⟨t1, t2, h1, hi, .inl hc⟩
  · exact ⟨t1, t2, h1, hi, .inr ⟨ho, typ, hsub _ ht, hc⟩⟩

theorem ah_errorTo {lib : Lib} {r mode uri typ desc state} {types : List GoStr} (ht : typ ∈ types) :
    AH (errorTo lib r mode uri typ desc state : AuthM α) Ok (Rejected lib mode uri state types) := by
  have key : ∀ {t o}, Runs (AuthResponse.error lib r mode uri typ desc state) t o →
      (o = .panic ∧ t = [] ∧ lib.urlParseOk uri = false ∧ channel mode ≠ .form) ∨
      (o = .ok () ∧ ∃ resp, SentTrace t resp ∧ Delivers resp uri (errorResponse typ desc state) (channel mode)) := by
    intro t o h
    unfold AuthResponse.error at h
    rw [errorParams_eq] at h
    rcases success_runs h with h | ⟨h1, _, h3⟩
    · exact .inl h
    · exact .inr ⟨h1, h3⟩
  unfold errorTo
  refine ah_bind (Ok := fun t (_ : Unit) => ∃ resp, SentTrace t resp ∧
    Delivers resp uri (errorResponse typ desc state) (channel mode)) (ah_lift ?_ ?_) ?_
  · intro t a h
    rcases key h with ⟨h1, _⟩ | ⟨_, h⟩
    · cases h1
    · exact h
  · intro t h
    rcases key h with ⟨_, h1⟩ | ⟨h1, _⟩
    · exact ⟨[], t, rfl, inert_nil, .inl ⟨rfl, h1⟩⟩
    · cases h1
  · rintro t1 _ ⟨resp, hs, hd⟩
    exact ah_throw ⟨[], t1, by simp, inert_nil, .inr ⟨rfl, typ, ht, desc, resp, hs, hd⟩⟩

/-- Log a line and send an error. -/
theorem ah_log_errorTo {lv ev ps} {lib : Lib} {r mode uri typ desc state} {types : List GoStr} (ht : typ ∈ types) :
    AH (do alog lv r ev ps; errorTo lib r mode uri typ desc state : AuthM α) Ok
      (Rejected lib mode uri state types) :=
  ah_alog_bind (ah_conseq (ah_errorTo (Ok := fun _ _ => False) ht) (fun _ _ h => h.elim)
    (fun _ _ h => rejected_cons rfl h))

theorem ah_callbackFailed {lib : Lib} {r mode uri state method} {types : List GoStr}
    (ht : b!"server_error" ∈ types) :
    AH (callbackFailed lib r mode uri state method : AuthM α) Ok (Rejected lib mode uri state types) :=
  ah_log_errorTo ht

/-- Prepend an inert call to both postconditions. -/
theorem ah_prepend {p : AuthM α} {e : Event} {lib mode uri state types}
    (he : Query.isInert e.q = true) (h : AH p Ok (Rejected lib mode uri state types))
    (hok : ∀ t a, Ok t a → Ok' (e :: t) a) :
    AH p (fun t a => Ok' (e :: t) a) (fun t o => Rejected lib mode uri state types (e :: t) o) :=
  ah_conseq h hok fun _ _ h => rejected_cons he h

/-- Sequencing after inert calls. -/
theorem ah_step {p : AuthM α} {f : α → AuthM β} {A : α → Prop} {OkB : List Event → β → Prop}
    (h : AH p (fun t a => Inert t ∧ A a) Bad) (hbad : ∀ t1 t2 o, Inert t1 → Bad t2 o → Bad (t1 ++ t2) o)
    (hok : ∀ t1 t2 b, Inert t1 → OkB t2 b → OkB (t1 ++ t2) b)
    (hf : ∀ a, A a → AH (f a) OkB Bad) : AH (p >>= f) OkB Bad :=
  ah_bind h fun t1 a ⟨hi, ha⟩ => ah_conseq (hf a ha) (fun t2 b h => hok t1 t2 b hi h)
    (fun t2 o h => hbad t1 t2 o hi h)

/-! ## Identification -/

/-- The run ends with the error screen, after inert calls only. -/
def Screened (t : List Event) (o : Outcome Bool) : Prop :=
  ∃ t1 n, t = t1 ++ [⟨.showErrorScreen n, ()⟩] ∧ Inert t1 ∧ o = .ok false

/-- The calls before anything may be sent to the redirect URI: the client was looked up and accepts
the URI.  (`e` is an error kind outside the documented three, returned together with a client.) -/
def Identified (r : Req) (clnt : Client) (t : List Event) : Prop :=
  r.formValue b!"client_id" ≠ [] ∧ r.formValue b!"redirect_uri" ≠ [] ∧
  clnt.canUseRedirectURI (r.formValue b!"redirect_uri") = true ∧
  ((t = [⟨.findClientById (r.formValue b!"client_id"), (some clnt, none)⟩]) ∨
   ∃ n, t = [⟨.findClientById (r.formValue b!"client_id"), (some clnt, some (.other n))⟩])

/-- How identification can fail: the error screen, or a panic when the client lookup answers
`(nil, err)` with an error kind outside the documented three. -/
def NotIdentified (r : Req) (t : List Event) (o : Outcome Bool) : Prop :=
  Screened t o ∨
  (o = .panic ∧ ∃ n, t = [⟨.findClientById (r.formValue b!"client_id"), (none, some (.other n))⟩])

theorem ah_showError {n : Nat} : AH (showError n : AuthM α) Ok Screened := by
  unfold showError
  refine ah_bind (Ok := fun t (_ : Unit) => t = [⟨.showErrorScreen n, ()⟩]) (ah_aask fun _ => rfl) ?_
  rintro t1 _ rfl
  exact ah_throw ⟨[], n, rfl, inert_nil, rfl⟩

theorem screened_cons {e t o} (he : Query.isInert e.q = true) (h : Screened t o) : Screened (e :: t) o := by
  obtain ⟨t1, n, rfl, hi, ho⟩ := h
  exact ⟨e :: t1, n, rfl, inert_cons.2 ⟨he, hi⟩, ho⟩

theorem ah_log_showError {lv r ev ps n} :
    AH (do alog lv r ev ps; showError n : AuthM α) Ok Screened :=
  ah_alog_bind (ah_conseq (ah_showError (Ok := fun _ _ => False)) (fun _ _ h => h.elim)
    (fun _ _ h => screened_cons rfl h))

theorem ah_identify (r : Req) : AH (identify r) (fun t c => Identified r c t) (NotIdentified r) := by
  have hs : ∀ {β : Type} {lv ev ps n} {Ok : List Event → β → Prop} {e : Event},
      Query.isInert e.q = true →
      AH (do alog lv r ev ps; showError n : AuthM β) Ok (fun t o => NotIdentified r (e :: t) o) :=
    fun he => ah_conseq (ah_log_showError (Ok := fun _ _ => False)) (fun _ _ h => h.elim)
      (fun _ _ h => .inl (screened_cons he h))
  unfold identify
  dsimp only
  split
  · exact ah_conseq (ah_log_showError (Ok := fun _ _ => False)) (fun _ _ h => h.elim) (fun _ _ h => .inl h)
  · rename_i hc
    split
    · exact ah_conseq (ah_log_showError (Ok := fun _ _ => False)) (fun _ _ h => h.elim) (fun _ _ h => .inl h)
    · rename_i hu
      refine ah_bind (Ok := fun t (c : Client) =>
        (t = [⟨.findClientById (r.formValue b!"client_id"), (some c, none)⟩]) ∨
        ∃ n, t = [⟨.findClientById (r.formValue b!"client_id"), (some c, some (.other n))⟩]) ?_ ?_
      · unfold findClient
        refine ah_ask_bind fun ans => ?_
        rcases ans with ⟨_ | c, _ | _ | _ | _ | n⟩
        · exact hs rfl
        · exact hs rfl
        · exact hs rfl
        · exact hs rfl
        · exact ah_apanic (.inr ⟨rfl, n, rfl⟩)
        · exact ah_pure (.inl rfl)
        · exact hs rfl
        · exact hs rfl
        · exact hs rfl
        · exact ah_pure (.inr ⟨n, rfl⟩)
      · intro t1 c hcl
        have hi : Inert t1 := by
          rcases hcl with rfl | ⟨n, rfl⟩ <;> exact inert_cons.2 ⟨rfl, inert_nil⟩
        split
        · refine ah_conseq (ah_log_showError (Ok := fun _ _ => False)) (fun _ _ h => h.elim) ?_
          rintro t o ⟨t2, n, rfl, hi2, ho⟩
          exact .inl ⟨t1 ++ t2, n, by simp, inert_append.2 ⟨hi, hi2⟩, ho⟩
        · rename_i hru
          have hru : c.canUseRedirectURI (r.formValue b!"redirect_uri") = true := by
            simpa using hru
          refine ah_pure ?_
          rw [List.append_nil]
          exact ⟨hc, hu, hru, hcl⟩

/-! ## The remaining parameter checks -/

/-- Error types a refused request can carry. -/
def buildErrors : List GoStr := [b!"invalid_request", b!"unauthorized_client", b!"invalid_scope", b!"server_error"]

/-- How building the request can fail. -/
abbrev BuildFailT (types : List GoStr) (lib : Lib) (r : Req) (t : List Event) (o : Outcome Bool) : Prop :=
  ∃ mode, Rejected lib mode (r.formValue b!"redirect_uri") (r.formValue b!"state") types t o

/-- … of one of the types building can send. -/
abbrev BuildFail (lib : Lib) (r : Req) (t : List Event) (o : Outcome Bool) : Prop := BuildFailT buildErrors lib r t o

theorem buildFail_prepend {types lib r t1 t2 o} (h : Inert t1) (hb : BuildFailT types lib r t2 o) :
    BuildFailT types lib r (t1 ++ t2) o := by
  obtain ⟨m, hb⟩ := hb
  exact ⟨m, rejected_prepend h hb⟩

/-- A validated request: what the parameters of `r` became. -/
structure Built (policy : Policy) (r : Req) (clnt : Client) (f : Flow) (req : Request) : Prop where
  flow : req.flow = some f
  judged : Flow.judgeByResponseType (r.formValue b!"response_type") = some f
  flowAllowed : clnt.canUseFlow f.type = true
  clientId : req.clientId = r.formValue b!"client_id"
  redirectURI : req.redirectURI = r.formValue b!"redirect_uri"
  state : req.state = r.formValue b!"state"
  loginHint : req.loginHint = r.formValue b!"login_hint"
  idTokenHint : req.idTokenHint = r.formValue b!"id_token_hint"
  mode : req.responseMode = defaultMode policy f ∨
    (ResponseMode.validate (r.formValue b!"response_mode") = true ∧
      req.responseMode = r.formValue b!"response_mode")
  modeLevel : policy.requireSecurityLevelCheck = true →
    ResponseMode.compareSecurityLevel req.responseMode (defaultMode policy f) = true
  display : req.display = b!"page" ∨ req.display = b!"popup" ∨ req.display = b!"wap" ∨ req.display = b!"touch"
  maxAge : (r.formValue b!"max_age" = [] ∧ req.maxAge = 0) ∨
    (atoi (r.formValue b!"max_age") = some req.maxAge ∧ r.formValue b!"max_age" ≠ [] ∧
      ¬ req.maxAge < policy.minMaxAge ∧ ¬ policy.maxMaxAge < req.maxAge)
  prompt : req.prompt = r.formValue b!"prompt"
  promptValid : req.prompt = [] ∨ Prompt.validate req.prompt = true
  scope : (req.scope = r.formValue b!"scope" ∧
      (Scope.includeOfflineAccess (r.formValue b!"scope") = true →
        f.type ≠ .implicit ∧ Prompt.includeConsent req.prompt = true)) ∨
    (req.scope = Scope.removeOfflineAccess (r.formValue b!"scope") ∧
      Scope.includeOfflineAccess (r.formValue b!"scope") = true ∧
      (f.type = .implicit ∨ Prompt.includeConsent req.prompt = false))
  scopeNonempty : policy.allowEmptyScope = false → req.scope ≠ []
  scopeOpenID : f.requireIdToken = true → Scope.includeOpenID req.scope = true
  scopeAllowed : clnt.canUseScope f.type req.scope = true
  nonce : req.nonce = r.formValue b!"nonce"
  nonceRequired : f.type ≠ .authorizationCode → f.requireIdToken = true → req.nonce ≠ []
  nonceLength : req.nonce = [] ∨ (req.nonce.length : Int) ≤ policy.maxNonceLength.toInt
  verifier : req.codeVerifier = r.formValue b!"code_verifier"
  verifierLength : req.codeVerifier = [] ∨ (req.codeVerifier.length : Int) ≤ policy.maxCodeVerifierLength.toInt

section build
variable {policy : Policy} {lib : Lib} {r : Req} {clnt : Client} {f : Flow}

theorem ah_log_buildFail {types lv ev ps mode typ desc} (ht : typ ∈ types) :
    AH (do alog lv r ev ps; errorTo lib r mode (r.formValue b!"redirect_uri") typ desc (r.formValue b!"state") :
      AuthM α) Ok (BuildFailT types lib r) :=
  ah_conseq (ah_log_errorTo (Ok := fun _ _ => False) ht) (fun _ _ h => h.elim) (fun _ _ h => ⟨mode, h⟩)

theorem ah_log_pure {lv ev ps} {a : α} {A : α → Prop} (ha : A a) :
    AH (do alog lv r ev ps; pure a : AuthM α) (fun t a => Inert t ∧ A a) Bad :=
  ah_alog_bind (ah_pure ⟨inert_cons.2 ⟨rfl, inert_nil⟩, ha⟩)

theorem ah_pure' {a : α} {A : α → Prop} (ha : A a) :
    AH (pure a : AuthM α) (fun t a => Inert t ∧ A a) Bad := ah_pure ⟨inert_nil, ha⟩

theorem ah_judgeFlow {mode : GoStr} {types : List GoStr} (hi : b!"invalid_request" ∈ types) :
    AH (judgeFlow lib r (r.formValue b!"redirect_uri") mode (r.formValue b!"state"))
      (fun t f => Inert t ∧ Flow.judgeByResponseType (r.formValue b!"response_type") = some f)
      (BuildFailT types lib r) := by
  unfold judgeFlow
  dsimp only
  split
  · exact ah_log_buildFail hi
  · split
    · exact ah_log_buildFail hi
    · rename_i f hf
      exact ah_pure' hf

theorem ah_pickMode {types : List GoStr} (hi : b!"invalid_request" ∈ types) :
    AH (pickMode policy lib r f (r.formValue b!"redirect_uri") (r.formValue b!"response_mode") (r.formValue b!"state"))
      (fun t m => Inert t ∧ (m = defaultMode policy f ∨
        (ResponseMode.validate (r.formValue b!"response_mode") = true ∧ m = r.formValue b!"response_mode")))
      (BuildFailT types lib r) := by
  unfold pickMode
  dsimp only
  split
  · exact ah_log_pure (A := fun m => m = defaultMode policy f ∨ _) (.inl rfl)
  · split
    · split
      · exact ah_log_pure (A := fun m => m = defaultMode policy f ∨ _) (.inl rfl)
      · exact ah_log_buildFail hi
    · rename_i hv
      exact ah_pure' (A := fun m => m = defaultMode policy f ∨
        (ResponseMode.validate (r.formValue b!"response_mode") = true ∧ m = r.formValue b!"response_mode"))
        (.inr ⟨by simpa using hv, rfl⟩)

theorem compareSecurityLevel_refl (m : GoStr) : ResponseMode.compareSecurityLevel m m = true := by
  simp [ResponseMode.compareSecurityLevel]

theorem ah_checkModeLevel {m0 : GoStr} {types : List GoStr} (hi : b!"invalid_request" ∈ types) :
    AH (checkModeLevel policy lib r f (r.formValue b!"redirect_uri") m0 (r.formValue b!"state"))
      (fun t m => Inert t ∧ ((m = defaultMode policy f ∨ m = m0) ∧
        (policy.requireSecurityLevelCheck = true →
          ResponseMode.compareSecurityLevel m (defaultMode policy f) = true)))
      (BuildFailT types lib r) := by
  unfold checkModeLevel
  dsimp only
  split
  · split
    · exact ah_log_pure (A := fun m => (m = defaultMode policy f ∨ m = m0) ∧ _)
        ⟨.inl rfl, fun _ => compareSecurityLevel_refl _⟩
    · exact ah_log_buildFail hi
  · rename_i h
    refine ah_pure' (A := fun m => (m = defaultMode policy f ∨ m = m0) ∧
        (policy.requireSecurityLevelCheck = true →
          ResponseMode.compareSecurityLevel m (defaultMode policy f) = true)) ⟨.inr rfl, fun hp => ?_⟩
    simpa [hp] using h

theorem ah_checkFlow {m : GoStr} {types : List GoStr} (hi : clnt.canUseFlow f.type = true ∨ b!"unauthorized_client" ∈ types) :
    AH (checkFlow lib r clnt f m (r.formValue b!"redirect_uri") (r.formValue b!"state"))
      (fun t _ => Inert t ∧ clnt.canUseFlow f.type = true) (BuildFailT types lib r) := by
  unfold checkFlow
  split
  · rename_i h
    refine ah_log_buildFail (hi.resolve_left fun h' => ?_)
    rw [h'] at h; cases h
  · rename_i h
    exact ah_pure' (A := fun _ => clnt.canUseFlow f.type = true) (by simpa using h)

theorem ah_checkDisplay {m : GoStr} {types : List GoStr} (hi : b!"invalid_request" ∈ types) :
    AH (checkDisplay lib r m (r.formValue b!"redirect_uri") (r.formValue b!"state"))
      (fun t d => Inert t ∧ (d = b!"page" ∨ d = b!"popup" ∨ d = b!"wap" ∨ d = b!"touch")) (BuildFailT types lib r) := by
  unfold checkDisplay
  dsimp only
  split
  · exact ah_pure' (A := fun d => d = b!"page" ∨ _) (.inl rfl)
  · split
    · rename_i h
      exact ah_pure' h
    · exact ah_log_buildFail hi

theorem ah_checkMaxAge {m : GoStr} {types : List GoStr} (hi : b!"invalid_request" ∈ types) :
    AH (checkMaxAge policy lib r m (r.formValue b!"redirect_uri") (r.formValue b!"state"))
      (fun t a => Inert t ∧ ((r.formValue b!"max_age" = [] ∧ a = 0) ∨
        (atoi (r.formValue b!"max_age") = some a ∧ r.formValue b!"max_age" ≠ [] ∧
          ¬ a < policy.minMaxAge ∧ ¬ policy.maxMaxAge < a)))
      (BuildFailT types lib r) := by
  unfold checkMaxAge
  dsimp only
  split
  · rename_i h
    exact ah_pure' (A := fun a => (r.formValue b!"max_age" = [] ∧ a = 0) ∨ _) (.inl ⟨h, rfl⟩)
  · rename_i hne
    split
    · exact ah_log_buildFail hi
    · rename_i a ha
      split
      · exact ah_log_buildFail hi
      · rename_i h1
        split
        · exact ah_log_buildFail hi
        · rename_i h2
          exact ah_pure' (A := fun a => (r.formValue b!"max_age" = [] ∧ a = 0) ∨
            (atoi (r.formValue b!"max_age") = some a ∧ r.formValue b!"max_age" ≠ [] ∧
              ¬ a < policy.minMaxAge ∧ ¬ policy.maxMaxAge < a)) (.inr ⟨ha, hne, h1, h2⟩)

theorem ah_checkPrompt {m : GoStr} :
    AH (checkPrompt lib r m (r.formValue b!"redirect_uri") (r.formValue b!"state"))
      (fun t p => Inert t ∧ (p = r.formValue b!"prompt" ∧ (p = [] ∨ Prompt.validate p = true)))
      (BuildFail lib r) := by
  unfold checkPrompt
  dsimp only
  split
  · rename_i h
    exact ah_log_pure (A := fun p => p = r.formValue b!"prompt" ∧ (p = [] ∨ Prompt.validate p = true))
      ⟨h.symm, .inl rfl⟩
  · split
    · rename_i h
      exact ah_pure' (A := fun p => p = r.formValue b!"prompt" ∧ (p = [] ∨ Prompt.validate p = true))
        ⟨rfl, .inr h⟩
    · exact ah_log_buildFail (by decide +kernel)

theorem ah_offlineScope {p m : GoStr} :
    AH (offlineScope policy lib r f p m (r.formValue b!"redirect_uri") (r.formValue b!"state"))
      (fun t s => Inert t ∧ ((s = r.formValue b!"scope" ∧
          (Scope.includeOfflineAccess (r.formValue b!"scope") = true →
            f.type ≠ .implicit ∧ Prompt.includeConsent p = true)) ∨
        (s = Scope.removeOfflineAccess (r.formValue b!"scope") ∧
          Scope.includeOfflineAccess (r.formValue b!"scope") = true ∧
          (f.type = .implicit ∨ Prompt.includeConsent p = false))))
      (BuildFail lib r) := by
  unfold offlineScope
  dsimp only
  split
  · rename_i ho
    split
    · rename_i h
      exact ah_log_pure (A := fun s => _ ∨ (s = Scope.removeOfflineAccess (r.formValue b!"scope") ∧ _ ∧ _))
        (.inr ⟨rfl, ho, h⟩)
    · rename_i h
      have h' : f.type ≠ .implicit ∧ Prompt.includeConsent p = true := by
        constructor
        · exact fun e => h (.inl e)
        · cases hp : Prompt.includeConsent p with
          | true => rfl
          | false => exact absurd (.inr hp) h
      split
      · exact ah_log_buildFail (by decide +kernel)
      · exact ah_pure' (A := fun s => (s = r.formValue b!"scope" ∧ _) ∨ _) (.inl ⟨rfl, fun _ => h'⟩)
  · rename_i ho
    exact ah_pure' (A := fun s => (s = r.formValue b!"scope" ∧ _) ∨ _) (.inl ⟨rfl, fun h => absurd h ho⟩)

theorem ah_checkScope {cid s m : GoStr} :
    AH (checkScope policy lib r clnt f cid s m (r.formValue b!"redirect_uri") (r.formValue b!"state"))
      (fun t _ => Inert t ∧ ((policy.allowEmptyScope = false → s ≠ []) ∧
        (f.requireIdToken = true → Scope.includeOpenID s = true) ∧ clnt.canUseScope f.type s = true))
      (BuildFail lib r) := by
  unfold checkScope
  dsimp only
  split
  · exact ah_log_buildFail (by decide +kernel)
  · rename_i h1
    split
    · exact ah_log_buildFail (by decide +kernel)
    · rename_i h2
      split
      · exact ah_log_buildFail (by decide +kernel)
      · rename_i h3
        refine ah_pure' (A := fun _ => (policy.allowEmptyScope = false → s ≠ []) ∧
          (f.requireIdToken = true → Scope.includeOpenID s = true) ∧ clnt.canUseScope f.type s = true) ⟨?_, ?_, ?_⟩
        · intro hp hs; exact h1 ⟨hs, hp⟩
        · intro hi; simpa [hi] using h2
        · simpa using h3

theorem ah_checkNonce {s m : GoStr} (hs : f.requireIdToken = true → Scope.includeOpenID s = true) :
    AH (checkNonce policy lib r f s m (r.formValue b!"redirect_uri") (r.formValue b!"state"))
      (fun t n => Inert t ∧ (n = r.formValue b!"nonce" ∧
        (f.type ≠ .authorizationCode → f.requireIdToken = true → n ≠ []) ∧
        (n = [] ∨ (n.length : Int) ≤ policy.maxNonceLength.toInt)))
      (BuildFail lib r) := by
  unfold checkNonce
  dsimp only
  split
  · exact ah_log_buildFail (by decide +kernel)
  · rename_i h1
    split
    · exact ah_log_buildFail (by decide +kernel)
    · rename_i h2
      refine ah_pure' (A := fun n => n = r.formValue b!"nonce" ∧
        (f.type ≠ .authorizationCode → f.requireIdToken = true → n ≠ []) ∧
        (n = [] ∨ (n.length : Int) ≤ policy.maxNonceLength.toInt)) ⟨rfl, ?_, ?_⟩
      · intro ht hi hn; exact h1 ⟨ht, hs hi, hi, hn⟩
      · rcases Decidable.em (r.formValue b!"nonce" = []) with h | h
        · exact .inl h
        · refine .inr (Int.not_lt.1 fun hlt => h2 ⟨h, hlt⟩)

theorem ah_checkVerifier {m : GoStr} :
    AH (checkVerifier policy lib r m (r.formValue b!"redirect_uri") (r.formValue b!"state"))
      (fun t v => Inert t ∧ (v = r.formValue b!"code_verifier" ∧
        (v = [] ∨ (v.length : Int) ≤ policy.maxCodeVerifierLength.toInt)))
      (BuildFail lib r) := by
  unfold checkVerifier
  dsimp only
  split
  · exact ah_log_buildFail (by decide +kernel)
  · rename_i h2
    refine ah_pure' (A := fun v => v = r.formValue b!"code_verifier" ∧
        (v = [] ∨ (v.length : Int) ≤ policy.maxCodeVerifierLength.toInt)) ⟨rfl, ?_⟩
    rcases Decidable.em (r.formValue b!"code_verifier" = []) with h | h
    · exact .inl h
    · refine .inr (Int.not_lt.1 fun hlt => h2 ⟨h, hlt⟩)

theorem ah_chooseLocale {m : GoStr} :
    AH (chooseLocale lib r m (r.formValue b!"redirect_uri") (r.formValue b!"state"))
      (fun t _ => Inert t ∧ True) (BuildFail lib r) := by
  unfold chooseLocale
  refine ah_ask_bind fun ans => ?_
  cases ans with
  | none =>
    exact ah_conseq (ah_callbackFailed (Ok := fun _ _ => False) (types := buildErrors) (by decide +kernel))
      (fun _ _ h => h.elim) (fun _ _ h => ⟨m, rejected_cons rfl h⟩)
  | some l => exact ah_pure ⟨inert_cons.2 ⟨rfl, inert_nil⟩, trivial⟩

/-- Building the request: only inert calls; either a validated request, or an error sent to the
redirect URI. -/
theorem ah_buildRequest : AH (buildRequest policy lib r clnt)
    (fun t req => Inert t ∧ ∃ f, Built policy r clnt f req) (BuildFail lib r) := by
  have hbad : ∀ t1 t2 o, Inert t1 → BuildFail lib r t2 o → BuildFail lib r (t1 ++ t2) o :=
    fun _ _ _ h => buildFail_prepend h
  have hok : ∀ t1 t2 (b : Request), Inert t1 → (Inert t2 ∧ ∃ f, Built policy r clnt f b) →
      (Inert (t1 ++ t2) ∧ ∃ f, Built policy r clnt f b) := fun _ _ _ h1 ⟨h2, h3⟩ => ⟨inert_append.2 ⟨h1, h2⟩, h3⟩
  unfold buildRequest
  refine ah_step (ah_judgeFlow (by decide +kernel)) hbad hok fun f hf => ?_
  refine ah_step (ah_pickMode (by decide +kernel)) hbad hok fun m0 hm0 => ?_
  refine ah_step (ah_checkModeLevel (by decide +kernel)) hbad hok fun m hm => ?_
  refine ah_step (ah_checkFlow (.inr (by decide +kernel))) hbad hok fun _ hfl => ?_
  refine ah_step (ah_checkDisplay (by decide +kernel)) hbad hok fun d hd => ?_
  refine ah_step (ah_checkMaxAge (by decide +kernel)) hbad hok fun a ha => ?_
  refine ah_step ah_checkPrompt hbad hok fun p hp => ?_
  refine ah_step ah_offlineScope hbad hok fun s hs => ?_
  refine ah_step ah_checkScope hbad hok fun _ hs2 => ?_
  refine ah_step (ah_checkNonce hs2.2.1) hbad hok fun n hn => ?_
  refine ah_step ah_checkVerifier hbad hok fun v hv => ?_
  refine ah_step ah_chooseLocale hbad hok fun l _ => ?_
  refine ah_pure ⟨inert_nil, f, ?_⟩
  constructor
  case flow => rfl
  case judged => exact hf
  case flowAllowed => exact hfl
  case clientId => rfl
  case redirectURI => rfl
  case state => rfl
  case loginHint => rfl
  case idTokenHint => rfl
  case mode =>
    rcases hm.1 with h | h
    · exact .inl h
    · rcases hm0 with h' | ⟨h', h''⟩
      · exact .inl (h.trans h')
      · exact .inr ⟨h', h.trans h''⟩
  case modeLevel => exact hm.2
  case display => exact hd
  case maxAge => exact ha
  case prompt => exact hp.1
  case promptValid => exact hp.2
  case scope => exact hs
  case scopeNonempty => exact hs2.1
  case scopeOpenID => exact hs2.2.1
  case scopeAllowed => exact hs2.2.2
  case nonce => exact hn.1
  case nonceRequired => exact hn.2.1
  case nonceLength => exact hn.2.2
  case verifier => exact hv.1
  case verifierLength => exact hv.2

/-- A `max_age` that is not an integer within the policy's bounds. -/
theorem ah_buildRequest_maxAge (hcu : ∀ f, Flow.judgeByResponseType (r.formValue b!"response_type") = some f →
      clnt.canUseFlow f.type = true) (hne : r.formValue b!"max_age" ≠ [])
    (hbadAge : ∀ a, atoi (r.formValue b!"max_age") = some a → a < policy.minMaxAge ∨ policy.maxMaxAge < a) :
    AH (buildRequest policy lib r clnt) (fun _ _ => False) (BuildFailT [b!"invalid_request"] lib r) := by
  have hbad : ∀ t1 t2 o, Inert t1 → BuildFailT [b!"invalid_request"] lib r t2 o →
      BuildFailT [b!"invalid_request"] lib r (t1 ++ t2) o := fun _ _ _ h => buildFail_prepend h
  have hok : ∀ (t1 t2 : List Event) (b : Request), Inert t1 → False → False := fun _ _ _ _ h => h
  unfold buildRequest
  refine ah_step (ah_judgeFlow (by simp)) hbad hok fun f hf => ?_
  refine ah_step (ah_pickMode (by simp)) hbad hok fun m0 hm0 => ?_
  refine ah_step (ah_checkModeLevel (by simp)) hbad hok fun m hm => ?_
  refine ah_step (ah_checkFlow (.inl (hcu f hf))) hbad hok fun _ hfl => ?_
  refine ah_step (ah_checkDisplay (by simp)) hbad hok fun d hd => ?_
  refine ah_step (ah_checkMaxAge (by simp)) hbad hok fun a ha => ?_
  exfalso
  rcases ha with ⟨h, _⟩ | ⟨h1, _, h2, h3⟩
  · exact hne h
  · exact (hbadAge a h1).elim h2 h3

end build

end Goidc
