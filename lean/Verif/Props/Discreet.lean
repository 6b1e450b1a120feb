import Verif.Spec.Discreet
import Verif.Props.TokenDecision
import Verif.Props.Refusals

/-! # C99: refusals do not tell which guesses were close -/

namespace Goidc.Props

open Spec

section Token
open TokenEndpoint

variable {cfg : TokenCfg} {lib lib' : Lib} {r r' : Req} {kind kind' : GrantKind} {t t' calls calls' c1 c1' : List Event}
  {o o' : Outcome Unit} {e : Reply} {c c' : Client} {now now' : Int64}

/-- The response that expresses a reply. -/
def render (cfg : TokenCfg) : Reply → HttpResp
  | .refused code desc => ⟨code.statusCode, commonHeaders, (withURI cfg ⟨code, desc, []⟩).json⟩
  | .challenged => ⟨401, (b!"WWW-Authenticate", b!"Basic realm=\"" ++ cfg.realm ++ b!"\"") :: commonHeaders,
      (withURI cfg (OAuthError.simple .invalidClient)).json⟩
  | .granted token scope idt => ⟨200, commonHeaders, (yieldResponse (token, scope, idt)).json⟩
  | .wrongMethod => ⟨405, [], []⟩
  | .crash => ⟨0, [], []⟩

theorem renders_exactly : Renders cfg fun resp e => resp = render cfg e where
  fail := by
    intro e h
    obtain ⟨ty, d, u⟩ := e
    obtain ⟨h1, -⟩ := h
    cases h1
    rfl
  challenge := rfl
  success := rfl
  wrongMethod := rfl

theorem expired_body_ne {u u' : GoStr} : OAuthError.json ⟨.invalidGrant, [], u⟩ ≠
    OAuthError.json ⟨.invalidGrant, b!"expired 'refresh_token'", u'⟩ := by
  intro h
  have m1 : jsonString (OAuthErrorType.string .invalidGrant) = b!"\"invalid_grant\"" := by decide +kernel
  have m4 : jsonString b!"error" = b!"\"error\"" := by decide +kernel
  have m2 : jsonString b!"error_uri" = b!"\"error_uri\"" := by decide +kernel
  have m3 : jsonString b!"error_description" = b!"\"error_description\"" := by decide +kernel
  have h := congrArg (fun l => (l[24]?, l[32]?)) h
  unfold OAuthError.json at h
  by_cases hu : u = []
  · by_cases hu' : u' = [] <;> simp [hu, hu', join, m1, OAuthError.member, m2, m3, m4] at h
  · by_cases hu' : u' = [] <;> simp [hu, hu', join, m1, OAuthError.member, m2, m3, m4] at h

/-- A row that refuses, whose calls happen, is answered with exactly its response. -/
theorem token_exactly (hr : Registered cfg r (kind.handler lib)) (h : Runs (handler cfg lib r) t o)
    (hc : tokenTable cfg lib r kind calls (.inr e)) (hp : calls <+: interactions t) (hn : ∀ a b d, e ≠ .granted a b d)
    (hx : e ≠ .crash) : interactions t = calls ++ [wrote (render cfg e)] := by
  obtain ⟨c', e', h1, h2⟩ := pf_handler renders_exactly (registered_kind hr) t o h
  rcases single_tokenTable c' calls _ _ h1 hc with ⟨rfl, h3⟩ | h3
  · have h3 : e'.Alike e := h3
    rw [reply_alike_eq h3 hn] at h2
    rcases h2 with ⟨resp, h2, -, h4⟩ | ⟨h2, -⟩
    · have h4 : resp = render cfg e := h4
      rwa [h4] at h2
    · exact absurd h2 hx
  · exact absurd (replies_fork h2 h3) (fork_prefix hp)

theorem clientOf_exactly (hr : Registered cfg r (kind.handler lib)) (h : Runs (handler cfg lib r) t o)
    (hm : r.method = b!"POST") (hg : r.formValue b!"grant_type" ≠ []) (hc : clientOf cfg lib r calls (.inr e))
    (hp : calls <+: interactions t) (hn : ∀ a b d, e ≠ .granted a b d) (hx : e ≠ .crash) :
    interactions t = calls ++ [wrote (render cfg e)] :=
  token_exactly hr h (table_goOn (not_not_intro hm) (table_goOn hg (table_goOn (fun h => h _ hr) (table_end hc)))) hp hn hx

theorem grant_exactly (ha : Admitted cfg lib r kind c now c1) (h : Runs (handler cfg lib r) t o)
    (hc : grantTable lib r c now kind calls (.inr e)) (hp : c1 ++ calls <+: interactions t) (hn : ∀ a b d, e ≠ .granted a b d)
    (hx : e ≠ .crash) : interactions t = c1 ++ calls ++ [wrote (render cfg e)] := by
  obtain ⟨hm, hg, hr, c2, h1, rfl⟩ := ha
  refine token_exactly hr h ?_ hp hn hx
  rw [List.append_assoc]
  exact table_goOn (not_not_intro hm) (table_goOn hg
    (table_goOn (fun h => h _ hr) (table_next h1 (table_next (c := [⟨.now, now⟩]) ⟨now, rfl, rfl⟩
      (table_end hc)))))

/-- C99: whoever presents a client id and a secret is not told whether the client exists: an unknown client
and a wrong secret are answered with the same response, whatever grants, clients and requests they are. -/
theorem C99_client (hr : Registered cfg r (kind.handler lib)) (hr' : Registered cfg r' (kind'.handler lib'))
    (h : Runs (handler cfg lib r) t o) (h' : Runs (handler cfg lib' r') t' o')
    (hm : r.method = b!"POST") (hm' : r'.method = b!"POST") (hg : r.formValue b!"grant_type" ≠ [])
    (hg' : r'.formValue b!"grant_type" ≠ []) {cid sec cid' sec' : GoStr} {inHeader : Bool}
    (hs : Presented cfg.acceptance r cid sec inHeader) (hs' : Presented cfg.acceptance r' cid' sec' inHeader)
    (hu : ClientUnusable cid sec calls) (hu' : ClientUnusable cid' sec' calls')
    (hp : calls <+: interactions t) (hp' : calls' <+: interactions t') : AnsweredAlike t calls t' calls' := by
  have key : ∀ {lib kind r t o cid sec calls}, Registered cfg r (GrantKind.handler lib kind) →
      Runs (handler cfg lib r) t o → r.method = b!"POST" → r.formValue b!"grant_type" ≠ [] →
      Presented cfg.acceptance r cid sec inHeader → ClientUnusable cid sec calls → calls <+: interactions t →
      interactions t = calls ++ [wrote (render cfg (if inHeader then .challenged else .refused .invalidClient []))] := by
    intro lib kind r t o cid sec calls hr h hm hg hs hu hp
    have hcr : find (CarriesCredential cfg r) .challenged [] (.inl (.secret cid sec inHeader)) :=
      find_some (a := Credential.secret cid sec inHeader) hs
    refine clientOf_exactly hr h hm hg (table_next (c := []) hcr ?_) hp (by cases inHeader <;> simp)
      (by cases inHeader <;> simp)
    cases hu with
    | unknown => exact table_end (.refused rfl)
    | wrongSecret hw => exact table_got rfl (table_end (endIf_pos hw))
  exact ⟨_, key hr h hm hg hs hu hp, key hr' h' hm' hg' hs' hu' hp'⟩

theorem code_exactly (ha : Admitted cfg lib r .code c now c1) (h : Runs (handler cfg lib r) t o)
    (hd : r.formValue b!"redirect_uri" ≠ []) (hc : r.formValue b!"code" ≠ []) (hu : CodeUnusable c (r.formValue b!"code") calls)
    (hp : c1 ++ calls <+: interactions t) :
    interactions t = c1 ++ calls ++ [wrote (render cfg (.refused .invalidGrant []))] := by
  refine grant_exactly ha h ?_ hp (by simp) (by simp)
  refine table_goOn hd (table_goOn hc ?_)
  cases hu with
  | unknown => exact table_end (.refused rfl)
  | revoked => exact table_got rfl (table_end (.refused rfl))
  | foreign hf => exact table_got rfl (table_got rfl (table_end (endIf_pos hf)))

/-- C99: a client that presents a code it was not given is not told whether the code exists: a code that does
not exist, one whose authorization is gone and one that belongs to another client are answered with the same
response, whatever else the requests contain. -/
theorem C99_code (ha : Admitted cfg lib r .code c now c1) (ha' : Admitted cfg lib' r' .code c' now' c1')
    (h : Runs (handler cfg lib r) t o) (h' : Runs (handler cfg lib' r') t' o')
    (hd : r.formValue b!"redirect_uri" ≠ []) (hd' : r'.formValue b!"redirect_uri" ≠ [])
    (hc : r.formValue b!"code" ≠ []) (hc' : r'.formValue b!"code" ≠ [])
    (hu : CodeUnusable c (r.formValue b!"code") calls) (hu' : CodeUnusable c' (r'.formValue b!"code") calls')
    (hp : c1 ++ calls <+: interactions t) (hp' : c1' ++ calls' <+: interactions t') :
    AnsweredAlike t (c1 ++ calls) t' (c1' ++ calls') :=
  ⟨_, code_exactly ha h hd hc hu hp, code_exactly ha' h' hd' hc' hu' hp'⟩

theorem refresh_exactly (ha : Admitted cfg lib r .refresh c now c1) (h : Runs (handler cfg lib r) t o)
    (hc : r.formValue b!"refresh_token" ≠ []) (hu : RefreshUnusable c now (r.formValue b!"refresh_token") calls)
    (hp : c1 ++ calls <+: interactions t) :
    interactions t = c1 ++ calls ++ [wrote (render cfg (.refused .invalidGrant []))] := by
  refine grant_exactly ha h ?_ hp (by simp) (by simp)
  refine table_goOn hc ?_
  cases hu with
  | unknown => exact table_end (.refused rfl)
  | revoked hx => exact table_got rfl (table_goOn hx (table_end (.refused rfl)))
  | @foreign old info hx hf =>
    refine table_got rfl (table_goOn hx (table_got rfl ?_))
    by_cases hi : info.clientId ≠ c.id
    · exact table_end (endIf_pos hi)
    · exact table_goOn hi (table_end (endIf_pos (hf.resolve_left hi)))

/-- C99, partial: a refresh token that does not exist, one whose authorization is gone, one that belongs to
another client and one that may not be refreshed are answered with the same response.  Missing: a refresh
token of another client that has expired (`C99_refresh_false`). -/
theorem C99_refresh_partial (ha : Admitted cfg lib r .refresh c now c1) (ha' : Admitted cfg lib' r' .refresh c' now' c1')
    (h : Runs (handler cfg lib r) t o) (h' : Runs (handler cfg lib' r') t' o')
    (hc : r.formValue b!"refresh_token" ≠ []) (hc' : r'.formValue b!"refresh_token" ≠ [])
    (hu : RefreshUnusable c now (r.formValue b!"refresh_token") calls)
    (hu' : RefreshUnusable c' now' (r'.formValue b!"refresh_token") calls')
    (hp : c1 ++ calls <+: interactions t) (hp' : c1' ++ calls' <+: interactions t') :
    AnsweredAlike t (c1 ++ calls) t' (c1' ++ calls') :=
  ⟨_, refresh_exactly ha h hc hu hp, refresh_exactly ha' h' hc' hu' hp'⟩

/-- C99: every expired refresh token is answered as such, and differently from one that does not exist, even
when it belongs to another client: the client learns that the token existed.  (The expiry is checked before
the client.) -/
theorem C99_refresh_leak (ha : Admitted cfg lib r .refresh c now c1) (ha' : Admitted cfg lib' r' .refresh c' now' c1')
    (h : Runs (handler cfg lib r) t o) (h' : Runs (handler cfg lib' r') t' o')
    (hc : r.formValue b!"refresh_token" ≠ []) (hc' : r'.formValue b!"refresh_token" ≠ []) {old : OAuthToken}
    (hx : old.createdAt + old.refreshTokenExpiresIn < now)
    (hp : c1 ++ [⟨.findOAuthTokenByRefreshToken (r.formValue b!"refresh_token"), (some old, none)⟩] <+: interactions t)
    (hu' : RefreshUnusable c' now' (r'.formValue b!"refresh_token") calls')
    (hp' : c1' ++ calls' <+: interactions t') :
    ¬ AnsweredAlike t (c1 ++ [⟨.findOAuthTokenByRefreshToken (r.formValue b!"refresh_token"), (some old, none)⟩])
      t' (c1' ++ calls') := by
  rintro ⟨resp, k1, k2⟩
  have k3 := refresh_exactly ha' h' hc' hu' hp'
  have k4 := grant_exactly ha h (e := .refused .invalidGrant b!"expired 'refresh_token'")
    (table_goOn hc (table_got rfl (table_end (endIf_pos hx)))) hp (by simp) (by simp)
  rw [k2] at k3
  rw [k1] at k4
  have k3 := List.append_inj_right' k3 rfl
  have k4 := List.append_inj_right' k4 rfl
  rw [k3] at k4
  have k5 : render cfg (.refused .invalidGrant []) = render cfg (.refused .invalidGrant b!"expired 'refresh_token'") := by
    simpa [wrote] using k4
  have k6 := congrArg HttpResp.body k5
  have k7 : ∀ d, withURI cfg ⟨.invalidGrant, d, []⟩ = ⟨.invalidGrant, d, errorURI cfg.errorURIBuilder .invalidGrant⟩ := by
    intro d
    unfold withURI errorURI
    rw [if_pos rfl]
    cases cfg.errorURIBuilder <;> rfl
  simp only [render, k7] at k6
  exact expired_body_ne k6

/-! ### Samples -/

/-- The response to a request, in a sample world. -/
def responseOf (w : Sample.World) (r : Req) : Option HttpResp :=
  (tokenRun w r).1.getLast?.bind fun e => match e.q with
    | .write resp => some resp
    | _ => none

/-- An unknown client and a wrong secret. -/
def strangerWorld : Sample.World := { client := (none, some .failed) }
def wrongSecretWorld : Sample.World := { client := (some { Sample.client with matchSecret := fun _ => false }, none) }

theorem sample_presented : Presented Sample.tokenCfg.acceptance (Sample.post Sample.codeBody) b!"client" b!"secret" true :=
  .header _ _ (by decide +kernel)

example : AnsweredAlike (tokenRun strangerWorld (Sample.post Sample.codeBody)).1
    [⟨.findClientById b!"client", (none, some .failed)⟩]
    (tokenRun wrongSecretWorld (Sample.post Sample.codeBody)).1
    [⟨.findClientById b!"client", (some { Sample.client with matchSecret := fun _ => false }, none)⟩] :=
  C99_client (cfg := Sample.tokenCfg) (kind := .code) (kind' := .code) (lib := Sample.lib) (lib' := Sample.lib) (r := Sample.post Sample.codeBody)
    (r' := Sample.post Sample.codeBody) rfl rfl (strangerWorld.runs _)
    (wrongSecretWorld.runs _) rfl rfl (by decide +kernel) (by decide +kernel) sample_presented sample_presented
    .unknown (.wrongSecret rfl) ⟨_, rfl⟩ ⟨_, rfl⟩

/-- A code that does not exist, and a code of another client. -/
def noCodeWorld : Sample.World := { session := (none, some .failed) }

example : AnsweredAlike (tokenRun noCodeWorld (Sample.post Sample.codeBody)).1
    (sampleAuth ++ [⟨.findAuthSessionByCode ((Sample.post Sample.codeBody).formValue b!"code"), (none, some .failed)⟩])
    (tokenRun stolenWorld (Sample.post Sample.codeBody)).1
    (sampleAuth ++ [⟨.findAuthSessionByCode ((Sample.post Sample.codeBody).formValue b!"code"), (some Sample.session, none)⟩,
      ⟨.findActiveAuthInfoById Sample.session.authId, (some { Sample.info with clientId := b!"other" }, none)⟩]) :=
  C99_code (tokenRun_admitted .code Sample.codeBody (by decide +kernel) rfl rfl)
    (tokenRun_admitted .code Sample.codeBody (by decide +kernel) rfl rfl) (noCodeWorld.runs _) (stolenWorld.runs _)
    (by decide +kernel) (by decide +kernel) (by decide +kernel) (by decide +kernel) .unknown (.foreign (by decide))
    ⟨_, rfl⟩ ⟨_, rfl⟩

/-- A refresh token that does not exist, and one of another client. -/
def noTokenWorld : Sample.World := { foundToken := (none, some .failed) }

example : AnsweredAlike (tokenRun noTokenWorld (Sample.post Sample.refreshBody)).1
    (sampleAuth ++ [⟨.findOAuthTokenByRefreshToken ((Sample.post Sample.refreshBody).formValue b!"refresh_token"),
      (none, some .failed)⟩])
    (tokenRun stolenWorld (Sample.post Sample.refreshBody)).1
    (sampleAuth ++ [⟨.findOAuthTokenByRefreshToken ((Sample.post Sample.refreshBody).formValue b!"refresh_token"),
      (some Sample.token, none)⟩,
      ⟨.findActiveAuthInfoById Sample.token.authId, (some { Sample.info with clientId := b!"other" }, none)⟩]) :=
  C99_refresh_partial (tokenRun_admitted .refresh Sample.refreshBody (by decide +kernel) rfl rfl)
    (tokenRun_admitted .refresh Sample.refreshBody (by decide +kernel) rfl rfl) (noTokenWorld.runs _) (stolenWorld.runs _)
    (by decide +kernel) (by decide +kernel) .unknown (.foreign (by decide) (.inl (by decide))) ⟨_, rfl⟩ ⟨_, rfl⟩

/-- A world in which the refresh token, which belongs to another client, has expired. -/
def foreignExpired : Sample.World := { stolenWorld with now := 100000 }

/-- C99 fails for refresh tokens: at the same time, the same client is answered differently for a token that
does not exist and for an expired token of another client. -/
theorem C99_refresh_false : ∃ (w w' : Sample.World) (r : Req) (info : AuthInfo) (resp resp' : HttpResp),
    w.now = w'.now ∧ w.client = w'.client ∧ w.client = (some Sample.client, none) ∧
    w.foundToken = (some Sample.token, none) ∧ w.info = (some info, none) ∧ info.id = Sample.token.authId ∧
    info.clientId ≠ Sample.client.id ∧ w'.foundToken = (none, some .failed) ∧
    responseOf w r = some resp ∧ responseOf w' r = some resp' ∧ resp ≠ resp' := by
  refine ⟨foreignExpired, { noTokenWorld with now := 100000 }, Sample.post Sample.refreshBody,
    { Sample.info with clientId := b!"other" }, _, _, rfl, rfl, rfl, rfl, rfl, rfl, by decide, rfl, rfl, rfl, ?_⟩
  decide +kernel

end Token

section Protector
open ResourceProtector

variable {cfg : ProtectorCfg} {lib : Lib} {r r' : Req} {t t' calls calls' : List Event} {o o' : Outcome (Bool × Req)}

theorem validate_exactly (h : Runs (validate cfg lib r) t o) {tok : GoStr} (hb : BearerToken cfg.acceptance r tok)
    (hu : TokenUnusable tok calls) (hp : calls <+: lookups t) :
    WroteOne t (verdictResp cfg lib (some (.invalidToken, []))) := by
  obtain ⟨rfl, hne⟩ := find_iff.2 hb
  unfold validate at h
  dsimp only at h
  rw [if_neg hne] at h
  replace h := runs_bind_ask.1 h
  obtain ⟨res, t1, rfl, h⟩ := h
  have hl : lookups (⟨.findOAuthTokenByAccessToken (findTokenFromRequest cfg r), res⟩ :: t1) =
      ⟨.findOAuthTokenByAccessToken (findTokenFromRequest cfg r), res⟩ :: lookups t1 := by
    simp [lookups, Query.isLog, Query.isWrite]
  rw [hl] at hp
  cases hu with
  | @unknown v =>
    have := (List.cons_prefix_cons.1 hp).1
    cases this
    obtain ⟨-, -, hw⟩ := refusedFor_log (bearer_verdict _ _) h
    exact wroteOne_cons hw (by simp)
  | @revoked tk now v hx =>
    obtain ⟨h1, hp2⟩ := List.cons_prefix_cons.1 hp
    cases h1
    unfold validateToken at h
    replace h := runs_bind_ask.1 h
    obtain ⟨now', t2, rfl, h⟩ := h
    have hl2 : lookups (⟨.now, now'⟩ :: t2) = ⟨.now, now'⟩ :: lookups t2 := by simp [lookups, Query.isLog, Query.isWrite]
    rw [hl2] at hp2
    obtain ⟨h2, hp3⟩ := List.cons_prefix_cons.1 hp2
    have h2 : now = now' := by simpa using h2
    subst h2
    rw [if_neg hx] at h
    unfold validateInfo at h
    replace h := runs_bind_ask.1 h
    obtain ⟨ians, t3, rfl, h⟩ := h
    have hl3 : lookups (⟨.findActiveAuthInfoById tk.authId, ians⟩ :: t3) = ⟨.findActiveAuthInfoById tk.authId, ians⟩ :: lookups t3 := by
      simp [lookups, Query.isLog, Query.isWrite]
    rw [hl3] at hp3
    have := (List.cons_prefix_cons.1 hp3).1
    cases this
    obtain ⟨-, -, hw⟩ := refusedFor_log (bearer_verdict _ _) h
    exact wroteOne_cons (wroteOne_cons (wroteOne_cons hw (by simp)) (by simp)) (by simp)

/-- C99: whoever presents an access token at a resource is not told whether the token exists: a token that
does not exist and one whose authorization is gone are answered with the same response. -/
theorem C99_protector (h : Runs (validate cfg lib r) t o) (h' : Runs (validate cfg lib r') t' o') {tok tok' : GoStr}
    (hb : BearerToken cfg.acceptance r tok) (hb' : BearerToken cfg.acceptance r' tok')
    (hu : TokenUnusable tok calls) (hu' : TokenUnusable tok' calls')
    (hp : calls <+: lookups t) (hp' : calls' <+: lookups t') : ∃ resp, WroteOne t resp ∧ WroteOne t' resp :=
  ⟨_, validate_exactly h hb hu hp, validate_exactly h' hb' hu' hp'⟩

/-- A revoked authorization. -/
def revokedWorld : Sample.World := { info := (none, some .failed) }

example : ∃ resp, WroteOne (noTokenWorld.run (validate sampleProtector Sample.lib sampleBearer)).1 resp ∧
    WroteOne (revokedWorld.run (validate sampleProtector Sample.lib sampleBearer)).1 resp :=
  C99_protector (noTokenWorld.runs _) (revokedWorld.runs _) sample_bearer sample_bearer .unknown
    (.revoked (tk := Sample.token) (now := 1000) (v := none) (by decide)) ⟨_, rfl⟩ ⟨_, rfl⟩

end Protector
end Goidc.Props
