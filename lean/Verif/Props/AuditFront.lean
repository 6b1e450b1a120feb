import Verif.Lemmas.AuditFront
import Verif.Props.Protector
import Verif.Props.AuthComplete

/-! # C86, C87: the logs of the resource protector and of the authorization endpoint -/

namespace Goidc.Props

open Spec AuthzEndpoint ResourceProtector

variable {cfg : ProtectorCfg} {policy : Policy} {lib : Lib} {r : Req} {pre post : List Event} {resp : HttpResp} {q : Query} {x : q.Resp}

/-! ## C86: the resource protector -/

/-- C86: every refusal of `Validate` is explained by the line of the log right before it. -/
theorem C86_validate (h : Steps (validate cfg lib r) (pre ++ wrote resp :: post)) :
    ∃ pre' l, pre = pre' ++ [logged l] ∧ ExplainsRefusal r.path resp.status l := by
  rcases prec_steps (wo_validate (last := none)) h rfl with ⟨_, l, h1, _⟩ | ⟨pre', l, h1, h2⟩
  · cases h1
  · exact ⟨pre', l, h1, h2 _ rfl⟩

/-- C86: so is every refusal of `ValidateWithScopes` other than `insufficient_scope`. -/
theorem C86_scopes_partial {m : List (GoStr × List GoStr)} (h : Steps (validateWithScopes cfg lib r m) (pre ++ wrote resp :: post))
    (hs : resp.status ≠ 403) : ∃ pre' l, pre = pre' ++ [logged l] ∧ ExplainsRefusal r.path resp.status l := by
  rcases prec_steps (wo_validateWithScopes (last := none)) h ⟨_, rfl, hs⟩ with ⟨_, l, h1, _⟩ | ⟨pre', l, h1, h2⟩
  · cases h1
  · exact ⟨pre', l, h1, h2 _ rfl⟩

/-- C86: a failure of the application is reported at once.  The exception is a `FindActiveAuthInfoById`
that returns neither a value nor an error; an unknown access token is reported with the token instead of
the method. -/
theorem C86_reported_partial {k : Option ErrType} (h : Steps (validate cfg lib r) (pre ++ ⟨q, x⟩ :: post)) (hf : failure q x = some k)
    (hn : ¬ ((∃ id, q = .findActiveAuthInfoById id) ∧ k = none)) :
    post = [] ∨ ∃ l post', post = logged l :: post' ∧ Reports q k l ∧
      (NamesMethod q l ∨ ∃ token, q = .findOAuthTokenByAccessToken token ∧ k = some .failed ∧ (b!"access_token", token) ∈ l.params) := by
  rcases foll_steps pr_validate h ⟨k, hf, hn⟩ with h | ⟨l, post', h1, h2⟩
  · exact .inl h
  · exact .inr ⟨l, post', h1, h2 k hf⟩

/-- The lines of a trace. -/
def linesOf (t : List Event) : List LogLine := t.filterMap fun e => match e.q with | .log l => some l | _ => none

theorem mem_linesOf {t : List Event} {l : LogLine} (h : logged l ∈ t) : l ∈ linesOf t := List.mem_filterMap.2 ⟨_, h, rfl⟩

/-- C86 fails for `insufficient_scope`: such a refusal leaves no line at all. -/
theorem C86_scope_false : ∃ (m : List (GoStr × List GoStr)) (pre : List Event) (resp : HttpResp),
    Steps (validateWithScopes sampleProtector Sample.lib sampleBearer m) (pre ++ [wrote resp]) ∧ resp.status = 403 ∧
    ∀ l, logged l ∉ pre := by
  let m : List (GoStr × List GoStr) := [(b!"/me", [b!"openid", b!"email"])]
  let p := validateWithScopes sampleProtector Sample.lib sampleBearer m
  let t := (({} : Sample.World).run p).1
  have h1 : linesOf t = [] := by decide +kernel
  have h2 : (lastWrite t).map (·.status) = some 403 := by decide +kernel
  have h3 : Steps p t := runs_steps (Sample.World.runs _ _)
  obtain ⟨resp, h4, h5⟩ : ∃ resp, lastWrite t = some resp ∧ resp.status = 403 := by
    cases hl : lastWrite t with
    | none => rw [hl] at h2; cases h2
    | some resp => rw [hl] at h2; exact ⟨resp, rfl, by simpa using h2⟩
  obtain ⟨pre, he⟩ := lastWrite_eq h4
  refine ⟨m, pre, resp, he ▸ h3, h5, fun l hl => ?_⟩
  have h6 : l ∈ linesOf t := mem_linesOf (by rw [he]; simp [hl])
  rw [h1] at h6
  cases h6

/-- C86: the lines of the protector are filed under its own endpoint.  Not all of them are: the refusal of
an expired token goes to the log of the token endpoint. -/
theorem C86_label_false : ∃ (w : Sample.World) (l : LogLine),
    linesOf (w.run (validate sampleProtector Sample.lib sampleBearer)).1 = [l] ∧ l.endpoint = b!"token_endpoint" := by
  refine ⟨{ now := 950 + 3601 }, ?_⟩
  cases hl : linesOf ((({ now := 950 + 3601 } : Sample.World)).run (validate sampleProtector Sample.lib sampleBearer)).1 with
  | nil =>
    have h0 : (linesOf ((({ now := 950 + 3601 } : Sample.World)).run (validate sampleProtector Sample.lib sampleBearer)).1).length = 1 := by
      decide +kernel
    rw [hl] at h0; cases h0
  | cons l ls =>
    have h0 : (linesOf ((({ now := 950 + 3601 } : Sample.World)).run (validate sampleProtector Sample.lib sampleBearer)).1).map (·.endpoint) =
      [b!"token_endpoint"] := by decide +kernel
    rw [hl] at h0
    simp only [List.map_cons, List.cons.injEq, List.map_eq_nil_iff] at h0
    exact ⟨l, by rw [h0.2], h0.1⟩

/-- Refusals that are explained. -/
example : ∃ pre resp, Steps (validate sampleProtector Sample.lib sampleBearer) (pre ++ [wrote resp]) ∧ resp.status = 401 :=
  Sample.World.steps (w := { foundToken := (none, some .failed) }) (by decide +kernel)
example : ∃ pre resp, Steps (validateWithScopes sampleProtector Sample.lib sampleBearer []) (pre ++ [wrote resp]) ∧ resp.status = 500 :=
  Sample.World.steps (w := { foundToken := (none, none) }) (by decide +kernel)
example : linesOf (({ foundToken := (none, some .serverError) } : Sample.World).run (validate sampleProtector Sample.lib sampleBearer)).1 =
    [⟨.warn, b!"protected_resource", b!"/me", .interfaceServerError,
      [(b!"method", b!"FindOAuthTokenByAccessToken"), (b!"access_token", b!"at")]⟩] := by decide +kernel

/-! ## C87: the authorization endpoint -/

/-- C87: an error screen is explained by the line of the log right before it. -/
theorem C87_screens {n : Nat} (h : Steps (handleRequest policy lib r) (pre ++ ⟨.showErrorScreen n, ()⟩ :: post)) :
    ∃ pre' l, pre = pre' ++ [logged l] ∧ ExplainsScreen r.path n l := by
  rcases prec_steps sc_handleRequest h rfl with ⟨_, l, h1, _⟩ | ⟨pre', l, h1, h2⟩
  · cases h1
  · exact ⟨pre', l, h1, h2 _ rfl⟩

/-- C87: a callback that fails is reported by the next line, with its name.  The exceptions are a login
screen that cannot be shown, and the name of one callback. -/
theorem C87_callbacks_partial (h : Steps (handleRequest policy lib r) (pre ++ ⟨q, x⟩ :: post)) (hf : Spec.callbackFailed q x)
    (hn : ∀ req, q ≠ .showLoginScreen req) :
    post = [] ∨ ∃ l post', post = logged l :: post' ∧ ReportsCallback r.path q l ∧
      (NamesMethod q l ∨ ((∃ s, q = .loginUserIsMatchedToSubject s) ∧ (b!"method", b!"LoginUserIsMatchedToHint") ∈ l.params)) :=
  foll_steps cb_handleRequest h ⟨hf, hn⟩

/-- C87, for the requests that continue after login and consent. -/
theorem C87_complete (h : Steps (completeRequest policy lib r) (pre ++ ⟨q, x⟩ :: post)) (hf : Spec.callbackFailed q x)
    (hn : ∀ req, q ≠ .showLoginScreen req) :
    post = [] ∨ ∃ l post', post = logged l :: post' ∧ ReportsCallback r.path q l ∧
      (NamesMethod q l ∨ ((∃ s, q = .loginUserIsMatchedToSubject s) ∧ (b!"method", b!"LoginUserIsMatchedToHint") ∈ l.params)) :=
  foll_steps cb_completeRequest h ⟨hf, hn⟩

/-- C87, for cancelled requests. -/
theorem C87_cancel (h : Steps (cancelRequest lib r) (pre ++ ⟨q, x⟩ :: post)) (hf : Spec.callbackFailed q x)
    (hn : ∀ req, q ≠ .showLoginScreen req) :
    post = [] ∨ ∃ l post', post = logged l :: post' ∧ ReportsCallback r.path q l ∧
      (NamesMethod q l ∨ ((∃ s, q = .loginUserIsMatchedToSubject s) ∧ (b!"method", b!"LoginUserIsMatchedToHint") ∈ l.params)) :=
  foll_steps cb_cancelRequest h ⟨hf, hn⟩

/-- C87 fails for the login screen of `prompt=login`: nothing follows its failure, and so no line. -/
theorem C87_login_false : ∃ pre req, Runs (handleRequest .default Sample.lib loginGet)
    (pre ++ [⟨.showLoginScreen req, false⟩]) (.ok false) := C44_false

/-- The failures of the application's data in a trace. -/
def failuresOf (t : List Event) : List (GoStr × Option ErrType) :=
  t.filterMap fun e => (failure e.q e.r).map fun k => (methodName e.q, k)

/-- C87 does not extend to the application's data: a session that cannot be stored leaves no line. -/
theorem C87_data_false : ∃ (w : Sample.World), failuresOf (w.run (completeRequest .default Sample.lib anyReq)).1 =
      [(b!"CreateAuthSession", some .serverError)] ∧
    linesOf (w.run (completeRequest .default Sample.lib anyReq)).1 = [] :=
  ⟨{ hybridWorld with storeSession := some .serverError }, by decide +kernel, by decide +kernel⟩

example : Steps (handleRequest .default Sample.lib { codeGet with query := [] })
    ([logged ⟨.debug, b!"authorization_endpoint", codeGet.path, .missingParam, [(b!"param", b!"client_id")]⟩] ++
      ⟨.showErrorScreen 0, ()⟩ :: []) := runs_steps (Sample.World.runs {} _)

/-- A screen that is explained, and a callback that is reported. -/
example : linesOf (({ client := (none, none) } : Sample.World).run (handleRequest .default Sample.lib codeGet)).1 =
    [⟨.error, b!"authorization_endpoint", b!"/authorize", .interfaceError,
      [(b!"method", b!"FindClientById"), (b!"client_id", b!"client")]⟩] := by decide +kernel
example : linesOf (({ hybridWorld with authTime := none } : Sample.World).run (completeRequest .default Sample.lib anyReq)).1 =
    [⟨.error, b!"authorization_endpoint", anyReq.path, .interfaceError, [(b!"method", b!"GetAuthTime")]⟩] := by decide +kernel

end Goidc.Props
