import Verif.Spec.Settings
import Verif.Lemmas.Snoc
import Verif.Props.ErrorRender
import Verif.Props.Refusals
import Verif.Props.AuthParams

/-! # C92: settings and defaults -/

namespace Goidc.Props

open Spec TokenEndpoint ResourceProtector AuthzEndpoint

variable {realm : GoStr} {lib : Lib} {r : Req} {pre t : List Event} {resp : HttpResp}

theorem lastSetting_append {α β : Type} (says : α → Option β) (d : β) (ops : List α) (op : α) :
    lastSetting says d (ops ++ [op]) = (says op).getD (lastSetting says d ops) := by
  unfold lastSetting
  rw [List.filterMap_append]
  cases h : says op with
  | none => simp [h]
  | some b => simp [h]

/-- C92: whatever configuration calls were made, in whatever order, each setting is what the last call about it
said, and no call changes another setting; before any call, secrets are taken from the header only, client
assertions are not accepted, errors have no `error_uri` and no grant type is registered. -/
theorem C92_token (realm : GoStr) (ops : List TokenOp) :
    (tokenEndpointOf realm ops).realm = realm ∧
    (tokenEndpointOf realm ops).acceptance = lastSetting TokenOp.secrets .fromHeader ops ∧
    (tokenEndpointOf realm ops).acceptClientAssertion = lastSetting TokenOp.assertions false ops ∧
    (∀ e, errorURI (tokenEndpointOf realm ops).errorURIBuilder e = lastSetting TokenOp.uris (fun _ => []) ops e) ∧
    ∀ r h, Registered (tokenEndpointOf realm ops) r h ↔
      lastSetting (TokenOp.handlers (r.formValue b!"grant_type")) none ops = some h := by
  induction ops using snoc_induction with
  | h0 => exact ⟨rfl, rfl, rfl, fun _ => rfl, fun r h => ⟨(fun h => by cases h), (fun h => by cases h)⟩⟩
  | h1 ops op ih =>
    obtain ⟨h1, h2, h3, h4, h5⟩ := ih
    have hs : tokenEndpointOf realm (ops ++ [op]) = op.apply (tokenEndpointOf realm ops) := by
      unfold tokenEndpointOf; rw [List.foldl_append]; rfl
    simp only [hs, lastSetting_append]
    cases op with
    | acceptClientSecret m => exact ⟨h1, rfl, h3, h4, h5⟩
    | acceptClientAssertion b => exact ⟨h1, h2, rfl, h4, h5⟩
    | setErrorURI u => exact ⟨h1, h2, h3, fun _ => rfl, h5⟩
    | setErrorURIBuilder f => exact ⟨h1, h2, h3, fun _ => by cases f <;> rfl, h5⟩
    | support type f =>
      refine ⟨h1, h2, h3, h4, fun r h => ?_⟩
      unfold Registered at h5 ⊢
      rw [show (TokenOp.support type f).apply (tokenEndpointOf realm ops) = support (tokenEndpointOf realm ops) type f from rfl,
        C05_support]
      by_cases hg : r.formValue b!"grant_type" = type
      · rw [if_pos hg]; simp [TokenOp.handlers, hg]
      · rw [if_neg hg]
        have : TokenOp.handlers (r.formValue b!"grant_type") (.support type f) = none := by
          simp [TokenOp.handlers, Ne.symm hg]
        rw [this]; exact h5 r h

/-- C92: the same for a resource protector; before any call, tokens are taken from the header only. -/
theorem C92_protector (realm : GoStr) (ops : List ProtectorOp) :
    (protectorOf realm ops).realm = realm ∧
    (protectorOf realm ops).acceptance = lastSetting ProtectorOp.tokens .fromHeader ops ∧
    ∀ e, errorURI (protectorOf realm ops).errorURIBuilder e = lastSetting ProtectorOp.uris (fun _ => []) ops e := by
  induction ops using snoc_induction with
  | h0 => exact ⟨rfl, rfl, fun _ => rfl⟩
  | h1 ops op ih =>
    obtain ⟨h1, h2, h4⟩ := ih
    have hs : protectorOf realm (ops ++ [op]) = op.apply (protectorOf realm ops) := by
      unfold protectorOf; rw [List.foldl_append]; rfl
    simp only [hs, lastSetting_append]
    cases op with
    | acceptAccessToken m => exact ⟨h1, rfl, h4⟩
    | setErrorURI u => exact ⟨h1, h2, fun _ => rfl⟩
    | setErrorURIBuilder f => exact ⟨h1, h2, fun _ => by cases f <;> rfl⟩

/-! ## What this means for requests -/

theorem lastSetting_none {α β : Type} {says : α → Option β} {d : β} {ops : List α} (h : ∀ op ∈ ops, says op = none) :
    lastSetting says d ops = d := by
  have : ops.filterMap says = [] := by
    rw [List.filterMap_eq_nil_iff]; exact h
  simp [lastSetting, this]

/-- C92: an endpoint for which neither `AcceptClientSecret` nor `AcceptClientAssertion` was called grants tokens only
to requests with the client's credentials in a Basic Authorization header. -/
theorem C92_header_only {ops : List TokenOp} (hs : ∀ op ∈ ops, TokenOp.secrets op = none)
    (ha : ∀ op ∈ ops, TokenOp.assertions op = none) (hb : AllBuiltIn lib (tokenEndpointOf realm ops))
    (h : Steps (handler (tokenEndpointOf realm ops) lib r) (pre ++ [wrote resp])) (h200 : resp.status = 200) :
    ∃ (c : Client) (cid sec : GoStr), r.basicAuth = some (cid, sec) ∧ ⟨.findClientById cid, (some c, none)⟩ ∈ pre ∧
      c.matchSecret sec = true := by
  obtain ⟨_, h2, h3, _, _⟩ := C92_token realm ops
  rw [lastSetting_none hs] at h2
  rw [lastSetting_none ha] at h3
  obtain ⟨c, t1, now, t2, t3, rfl, _, hau, _⟩ := C02_authenticated (allBuiltIn_silent hb) h h200
  rcases hau with ⟨cid, sec, inh, hp, hm, hsec⟩ | ⟨hf, _⟩
  · rw [h2] at hp
    exact ⟨c, cid, sec, C04_from_header hp, by simp [hm], hsec⟩
  · rw [h3] at hf; cases hf

/-- C92: an endpoint on which `Support` was never called for the request's grant type looks nothing up and
answers with an error. -/
theorem C92_unsupported {ops : List TokenOp}
    (hn : ∀ type f, TokenOp.support type f ∈ ops → type ≠ r.formValue b!"grant_type") (hm : r.method = b!"POST") {o}
    (h : Runs (handler (tokenEndpointOf realm ops) lib r) t o) :
    o = .ok () ∧ (∀ e ∈ t, e.q.isData = false) ∧ ∃ pre resp, t = pre ++ [wrote resp] ∧ resp.status = 400 := by
  obtain ⟨_, _, _, _, h5⟩ := C92_token realm ops
  have hno : ∀ hf, ¬ Registered (tokenEndpointOf realm ops) r hf := by
    intro hf hr
    rw [h5, lastSetting_none] at hr
    · cases hr
    · intro op hop
      cases op <;> first | rfl | (rename_i type f; simp [TokenOp.handlers, hn type f hop])
  obtain ⟨h1, h2, pre, resp, _, _, h3, h4, _⟩ := C05_unregistered hm (.inr hno) h
  exact ⟨h1, h2, pre, resp, h3, h4⟩

/-- C92: after `SetErrorURI(u)`, as long as no other error URI is set, every refused POST is answered with an
`error_uri`, and it is `u`. -/
theorem C92_error_uri {ops ops' : List TokenOp} {u : GoStr} (hu : u ≠ []) (hv : ValidUtf8 u)
    (hs : ∀ op ∈ ops', TokenOp.uris op = none)
    (hb : AllBuiltIn lib (tokenEndpointOf realm (ops ++ .setErrorURI u :: ops')))
    (h : Steps (handler (tokenEndpointOf realm (ops ++ .setErrorURI u :: ops')) lib r) t) (hx : wrote resp ∈ t)
    (hm : r.method = b!"POST") (h200 : resp.status ≠ 200) :
    ∃ members, JsonText resp.body (.obj members) ∧ (b!"error_uri", .str u) ∈ members := by
  obtain ⟨_, _, _, h4, _⟩ := C92_token realm (ops ++ .setErrorURI u :: ops')
  have hl : lastSetting TokenOp.uris (fun _ => []) (ops ++ .setErrorURI u :: ops') = fun _ => u := by
    have : ops'.filterMap TokenOp.uris = [] := List.filterMap_eq_nil_iff.2 hs
    simp [lastSetting, List.filterMap_append, this, TokenOp.uris]
  obtain ⟨e, d, u0, d', u', _, _, _, _, h6, h7, h8⟩ := C67_refusal hb h hx hm h200
  have hu0 : u0 = u := by
    have h4 := h4 e
    rw [hl] at h4
    exact h6.trans h4
  subst hu0
  rw [if_neg hu, h7 hv] at h8
  exact ⟨_, h8, by simp⟩

/-- C92: under the default policy a request that is handed to a screen has a `max_age` of 60 to 86400 seconds or
none, and a nonce and code verifier of at most 255 bytes. -/
theorem C92_default_policy {req : Request} (h : Steps (handleRequest .default lib r) t) (hh : Handed t req) :
    (r.formValue b!"max_age" = [] ∨ (60 ≤ req.maxAge.toInt ∧ req.maxAge.toInt ≤ 86400)) ∧
    req.nonce.length ≤ 255 ∧ req.codeVerifier.length ≤ 255 := by
  obtain ⟨_, _, _, h1, h2⟩ := C39_handed h hh
  refine ⟨?_, ?_, ?_⟩
  · rcases C64_exact h hh with ⟨h, _⟩ | ⟨_, h, h'⟩
    · exact .inl h
    · exact .inr ⟨h, h'⟩
  · have := h1 (by decide)
    have h : (Policy.default.maxNonceLength.toInt : Int) = 255 := by decide
    omega
  · have := h2 (by decide)
    have h : (Policy.default.maxCodeVerifierLength.toInt : Int) = 255 := by decide
    omega

/-! ## The hypotheses are met -/

/-- Set-up calls: the settings are changed back and forth, grants registered, an error URI set. -/
def sampleOps : List TokenOp :=
  [.setErrorURI b!"https://old/", .support Grant.typePassword Grant.clientCredentials,
   .support Grant.typePassword Grant.password, .support Grant.typeAuthorizationCode (Grant.authorizationCode Sample.lib)]

/-- More calls, none of which is about error URIs. -/
def sampleOps' : List TokenOp := [.support Grant.typeRefreshToken Grant.refreshToken]

theorem sampleOps_builtIn : AllBuiltIn Sample.lib
    (tokenEndpointOf b!"realm" (sampleOps ++ .setErrorURI b!"https://doc/" :: sampleOps')) := by
  intro gt h hl
  change Registered _ { Sample.post [(b!"grant_type", gt)] with headers := [] } h at hl
  have hl := ((C92_token b!"realm" _).2.2.2.2 _ h).1 hl
  have hg : Req.formValue { Sample.post [(b!"grant_type", gt)] with headers := [] } b!"grant_type" = gt := by
    rfl
  rw [hg] at hl
  by_cases h1 : Grant.typePassword = gt <;> by_cases h2 : Grant.typeAuthorizationCode = gt <;>
    by_cases h3 : Grant.typeRefreshToken = gt <;>
    simp [lastSetting, sampleOps, sampleOps', List.filterMap_cons, TokenOp.handlers, h1, h2, h3] at hl <;>
    subst hl <;> constructor

-- a grant with the credentials in the header (C92_header_only)
example : (∀ op ∈ sampleOps ++ .setErrorURI b!"https://doc/" :: sampleOps', TokenOp.secrets op = none) ∧
    (∀ op ∈ sampleOps ++ .setErrorURI b!"https://doc/" :: sampleOps', TokenOp.assertions op = none) ∧
    ∃ pre resp, Steps (handler (tokenEndpointOf b!"realm" (sampleOps ++ .setErrorURI b!"https://doc/" :: sampleOps'))
      Sample.lib (Sample.post Sample.passwordBody)) (pre ++ [wrote resp]) ∧ resp.status = 200 :=
  ⟨by simp [sampleOps, sampleOps', TokenOp.secrets], by simp [sampleOps, sampleOps', TokenOp.assertions],
    ({} : Sample.World).steps (by decide +kernel)⟩

-- a refusal with the error URI (C92_error_uri), and the body it is answered with
example : b!"https://doc/" ≠ [] ∧ ValidUtf8 b!"https://doc/" ∧ (∀ op ∈ sampleOps', TokenOp.uris op = none) ∧
    (∃ pre resp, Steps (handler (tokenEndpointOf b!"realm" (sampleOps ++ .setErrorURI b!"https://doc/" :: sampleOps'))
      Sample.lib (Sample.post Sample.ccBody)) (pre ++ [wrote resp]) ∧ resp.status = 400) ∧
    (lastWrite (({} : Sample.World).run (handler (tokenEndpointOf b!"realm"
      (sampleOps ++ .setErrorURI b!"https://doc/" :: sampleOps')) Sample.lib (Sample.post Sample.ccBody))).1).map (·.body) =
      some b!"{\"error\":\"unsupported_grant_type\",\"error_description\":\"unsupported 'grant_type' parameter: 'client_credentials'\",\"error_uri\":\"https://doc/\"}" :=
  ⟨by decide, valid_ascii (by decide), by simp [sampleOps', TokenOp.uris], ({} : Sample.World).steps (by decide +kernel),
    by decide +kernel⟩

-- a grant type nobody registered (C92_unsupported)
example : ∀ type f, TokenOp.support type f ∈ sampleOps → type ≠ (Sample.post Sample.ccBody).formValue b!"grant_type" := by
  intro type f h
  simp only [sampleOps, List.mem_cons, TokenOp.support.injEq, reduceCtorEq, List.not_mem_nil, or_false, false_or] at h
  rcases h with ⟨rfl, _⟩ | ⟨rfl, _⟩ | ⟨rfl, _⟩ <;> decide

-- a request handed to the login screen under the default policy (C92_default_policy)
example : (({ consentedWorld with loggedIn := some false } : Sample.World).run
    (handleRequest .default Sample.lib (promptGet [] [(b!"max_age", b!"60")]))).1.any
      (fun e => match e.q with | .showLoginScreen q => q.maxAge == 60 | _ => false) = true := by decide +kernel

-- a protector that is told to accept tokens from the body, and then to accept them from the header only
example : (protectorOf b!"r" [.acceptAccessToken .fromAll, .setErrorURI b!"u", .acceptAccessToken .fromHeader]).acceptance =
    .fromHeader := by rw [(C92_protector _ _).2.1]; rfl

end Goidc.Props
