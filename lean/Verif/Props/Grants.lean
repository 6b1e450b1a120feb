import Verif.Lemmas.Jwt
import Verif.Lemmas.GrantIssue
import Verif.Lemmas.Int64
import Verif.Props.CodeGrant

/-! # C15-C20, C22, C63: refresh_token, password, client_credentials and JWT grants -/

namespace Goidc.Props

open Spec TokenEndpoint

variable {cfg : TokenCfg} {lib : Lib} {r : Req} {pre post t : List Event} {resp : HttpResp}

/-! ## C15 -/

/-- A refused request that has created a token (see `C15_no_token_partial`). -/
theorem no_token_of_refused (hb : AllBuiltIn lib cfg)
    (h : Runs (handler cfg lib r) (pre ++ [wrote resp]) (.ok ())) (hne : resp.status ≠ 200)
    {e : Event} (he : e ∈ pre) (hi : Issued e) :
    Registered cfg r (Grant.authorizationCode lib) ∧
    ((∃ sess err, ⟨.disableSession sess, some err⟩ ∈ pre) ∨
     (∃ (c : Client) (sess : AuthSession) (info : AuthInfo) (now : Int64) (iss : GoStr), Authenticated cfg lib r c pre ∧
        ⟨.findActiveAuthInfoById sess.authId, (some info, none)⟩ ∈ pre ∧ ⟨.issuer, iss⟩ ∈ pre ∧
        ⟨.now, now⟩ ∈ pre ∧ Scope.includes info.scope b!"openid" = true ∧
        IdToken.gen lib c.idTokenAlg c.idTokenKey c.idTokenKeyId iss info.clientId info.subject
          sess.nonce sess.idTokenExpiresIn sess.authTime now = none)) := by
  have hni : ∀ q, PhaseOne q → NoIssue q := by
    intro q hq
    cases q <;> simp [PhaseOne, NoIssue, IsAuthCall, Query.isLog, Query.isWrite] at hq ⊢
  rcases runs_phases h with h1 | ⟨_, _, hf, c, t1, t2, hreg, heq, ha, hx⟩
  · exact absurd hi (not_issued_of (hni _ (h1 e (by simp [he]))))
  · obtain ⟨now, t3, ⟨err, hxe, rfl⟩ | ⟨res, hxo, rfl⟩⟩ := runs_execute hx
    · rw [← List.append_assoc] at heq
      obtain ⟨rfl, h2⟩ := List.append_inj' heq rfl
      have hm : e ∈ t3 := by
        simp only [List.mem_append, List.mem_cons] at he
        rcases he with he | rfl | he
        · rcases (authTrace_authenticated ha).2 e he with h' | h'
          · exact absurd hi (not_issued_of (hni _ (.inl h')))
          · exact absurd hi (not_issued_of (hni _ (.inr (.inl h'))))
        · exact hi.elim
        · exact he
      cases hb _ _ hreg with
      | authorizationCode =>
        refine ⟨hreg, ?_⟩
        rcases code_issued_err hxe hm hi with ⟨sess, err, h'⟩ | ⟨sess, info, iss, h3, h4, h5, h6⟩
        · exact .inl ⟨sess, err, by simp [h']⟩
        · refine .inr ⟨c, sess, info, now, iss, ?_, by simp [h3], by simp [h4], by simp, h5, h6⟩
          exact authenticated_mono (authTrace_authenticated ha).1 (by simp +contextual)
      | refreshToken => exact absurd hi (cleanErr_refreshToken _ _ hxe _ hm)
      | password => exact absurd hi (cleanErr_password _ _ hxe _ hm)
      | clientCredentials => exact absurd hi (cleanErr_clientCredentials _ _ hxe _ hm)
      | jwt => exact absurd hi (cleanErr_jwt _ _ hxe _ hm)
    · have : pre ++ [wrote resp] = (t1 ++ ⟨.now, now⟩ :: t3 ++ [logged ⟨.debug, b!"token_endpoint",
          r.formValue b!"grant_type", .accessTokenGranted, [pClient c]⟩]) ++
          [wrote ⟨200, commonHeaders, res.json⟩] := by simpa using heq
      obtain ⟨_, h2⟩ := List.append_inj' this rfl
      cases h2
      exact absurd rfl hne

/-- Whether a token was created in the trace. -/
def anyIssued (t : List Event) : Bool :=
  t.any fun e => match e with
    | ⟨.createOAuthToken _ _, (some _, none)⟩ => true
    | ⟨.refreshAccessToken _ _, (some _, none)⟩ => true
    | _ => false

theorem anyIssued_iff {t : List Event} : anyIssued t = true ↔ ∃ e ∈ t, Issued e := by
  unfold anyIssued
  rw [List.any_eq_true]
  constructor
  · rintro ⟨e, he, h⟩
    refine ⟨e, he, ?_⟩
    unfold Issued
    split at h <;> simp_all
  · rintro ⟨e, he, h⟩
    refine ⟨e, he, ?_⟩
    unfold Issued at h
    split at h <;> simp_all

/-- C15 does not hold in general: when `DisableSession` fails, the request is refused although the
token has been created (and the code is still live). -/
theorem C15_false : ¬ ∀ (cfg : TokenCfg) (lib : Lib) (r : Req) (pre : List Event) (resp : HttpResp),
    AllBuiltIn lib cfg → Runs (handler cfg lib r) (pre ++ [wrote resp]) (.ok ()) → resp.status ≠ 200 →
    ∀ e ∈ pre, ¬ Issued e := by
  intro hall
  let w : Sample.World := { disable := some .failed }
  let r := Sample.post Sample.codeBody
  have hst : (lastWrite (w.run (handler Sample.tokenCfg Sample.lib r)).1).map (·.status) = some 400 := by
    decide +kernel
  have hno : anyIssued (w.run (handler Sample.tokenCfg Sample.lib r)).1 = true := by decide +kernel
  have hr := w.runs (handler Sample.tokenCfg Sample.lib r)
  cases hl : lastWrite (w.run (handler Sample.tokenCfg Sample.lib r)).1 with
  | none => rw [hl] at hst; cases hst
  | some resp =>
    rw [hl] at hst
    obtain ⟨pre, he⟩ := lastWrite_eq hl
    rw [he] at hr hno
    obtain ⟨e, hm, hi⟩ := anyIssued_iff.1 hno
    rcases List.mem_append.1 hm with hm | hm
    · obtain ⟨_, _, hr', _⟩ := (writes_handler (allBuiltIn_silent sample_allBuiltIn)).complete (runs_steps hr)
      exact hall _ _ _ _ _ sample_allBuiltIn hr' (by simp at hst; simp [hst]) e hm hi
    · simp only [List.mem_singleton] at hm
      subst hm
      exact hi

/-! ## C16 -/

/-- A refresh token is within its lifetime at time `now`, as the code computes it. -/
def RefreshLive (old : OAuthToken) (now : Int64) : Prop :=
  ¬ (old.refreshTokenExpiresIn + old.createdAt < now)

/-- A 200 answer to a refresh request: the presented token was found, is within its lifetime at the
(only) clock reading, its authorization is active, belongs to the authenticated client and includes
`offline_access`, and the response carries the token `RefreshAccessToken` returned for them. -/
theorem C16_refresh (hreg : Registered cfg r Grant.refreshToken)
    (h : Steps (handler cfg lib r) (pre ++ [wrote resp])) (h200 : resp.status = 200) :
    ∃ c auth now old info tk res,
      Authenticated cfg lib r c auth ∧ (∀ e ∈ auth, IsAuthCall e.q) ∧
      (∀ n, ⟨.now, n⟩ ∈ pre ↔ n = now) ∧
      dataCalls pre = auth ++
        [⟨.findOAuthTokenByRefreshToken (r.formValue b!"refresh_token"), (some old, none)⟩,
         ⟨.findActiveAuthInfoById old.authId, (some info, none)⟩,
         ⟨.refreshAccessToken info old, (some tk, none)⟩] ∧
      r.formValue b!"refresh_token" ≠ [] ∧ RefreshLive old now ∧ info.clientId = c.id ∧
      (∀ ws, Words info.scope ws → b!"offline_access" ∈ ws) ∧
      resp.body = Response.json res ∧
      res.tokenType = b!"Bearer" ∧ res.accessToken = tk.accessToken ∧ res.expiresIn = tk.accessTokenExpiresIn ∧
      res.refreshToken = tk.refreshToken ∧ res.scope = info.scope ∧ res.idToken = [] := by
  obtain ⟨c, auth, now, t2, res, h1, h2, h3, _, hok, h4, h5⟩ := grant_200 hreg .refreshToken h h200
  obtain ⟨old, info, tk, hrt, rfl, hx, hci, hoff, rfl⟩ := refreshToken_ok hok
  refine ⟨c, auth, now, old, info, tk, _, h1, h2, fun n => ?_, ?_, hrt, hx, hci, fun ws hw => ?_,
    by rw [h5], rfl, rfl, rfl, rfl, rfl, rfl⟩
  · rw [h3]; simp
  · rw [h4]; simp [dataCalls, Query.isData]
  · exact (C46_include hw).1 hoff

/-- Why a refresh grant fails. -/
theorem refresh_err {c now t e} (hx : XErr (Grant.refreshToken r c now) t e) :
    r.formValue b!"refresh_token" = [] ∨ (∃ x ∈ t, x.answer ≠ .good) ∨
    (∃ old, ⟨.findOAuthTokenByRefreshToken (r.formValue b!"refresh_token"), (some old, none)⟩ ∈ t ∧
      (¬ RefreshLive old now ∨ ∃ info, ⟨.findActiveAuthInfoById old.authId, (some info, none)⟩ ∈ t ∧
        (info.clientId ≠ c.id ∨ Scope.includeOfflineAccess info.scope = false))) := by
  have hbad : ∀ {α : Type} {q : Query} {v : Option α × Option ErrType} {x : q.Resp}, 
      (⟨q, x⟩ : Event).answer = Answer.ofPair v → Answer.ofPair v ≠ .good → (⟨q, x⟩ : Event).answer ≠ .good :=
    fun h h' => h ▸ h'
  unfold Grant.refreshToken at hx
  rcases xerr_bind.1 hx with h | ⟨_, _, _, rfl, h0, hx1⟩
  · unfold Grant.needParam at h
    dsimp only at h
    split at h
    · rename_i hv; exact .inl hv
    · simp at h
  obtain ⟨rfl, hne, rfl⟩ := xok_needParam.1 h0
  right
  rcases xerr_bind.1 hx1 with h | ⟨o, _, _, rfl, h1, hx2⟩
  · exact (xerr_gask.1 h).elim
  obtain rfl := xok_gask.1 h1
  rcases xerr_bind.1 hx2 with h | ⟨old, _, _, rfl, h2, hx3⟩
  · exact .inl ⟨⟨_, o⟩, by simp, hbad rfl (xerr_checkVal h).2⟩
  obtain ⟨rfl, rfl⟩ := xok_checkVal.1 h2
  split at hx3
  · rename_i hlt
    exact .inr ⟨old, by simp, .inl (fun h => h hlt)⟩
  rcases xerr_bind.1 hx3 with h | ⟨i, _, _, rfl, h3, hx4⟩
  · exact (xerr_gask.1 h).elim
  obtain rfl := xok_gask.1 h3
  rcases xerr_bind.1 hx4 with h | ⟨info, _, _, rfl, h4, hx5⟩
  · exact .inl ⟨⟨_, i⟩, by simp, hbad rfl (xerr_checkVal h).2⟩
  obtain ⟨rfl, rfl⟩ := xok_checkVal.1 h4
  split at hx5
  · rename_i hc
    exact .inr ⟨old, by simp, .inr ⟨info, by simp, .inl hc⟩⟩
  split at hx5
  · rename_i hc
    exact .inr ⟨old, by simp, .inr ⟨info, by simp, .inr hc⟩⟩
  rcases xerr_bind.1 hx5 with h | ⟨tk, _, _, rfl, h5, hx6⟩
  · exact (xerr_gask.1 h).elim
  obtain rfl := xok_gask.1 h5
  rcases xerr_bind.1 hx6 with h | ⟨tk', _, _, rfl, h6, hx7⟩
  · exact .inl ⟨⟨_, tk⟩, by simp, hbad rfl (xerr_checkVal h).2⟩
  simp at hx7

/-- Conversely, once the presented token was found, these conditions suffice when the application
reports no failure. -/
theorem C16_refresh_complete (hreg : Registered cfg r Grant.refreshToken)
    (h : Runs (handler cfg lib r) (pre ++ [wrote resp]) (.ok ())) (hgood : ∀ e ∈ pre, e.answer = .good)
    {k old0} (hfound : ⟨.findOAuthTokenByRefreshToken k, (some old0, none)⟩ ∈ pre)
    (hlive : ∀ k old n, ⟨.findOAuthTokenByRefreshToken k, (some old, none)⟩ ∈ pre → ⟨.now, n⟩ ∈ pre →
      RefreshLive old n)
    (hinfo : ∀ cid c i info, ⟨.findClientById cid, (some c, none)⟩ ∈ pre →
      ⟨.findActiveAuthInfoById i, (some info, none)⟩ ∈ pre →
      info.clientId = c.id ∧ ∃ ws, Words info.scope ws ∧ b!"offline_access" ∈ ws) :
    resp.status = 200 := by
  rcases runs_phases h with h1 | ⟨_, _, hf, c, t1, t2, hreg', heq, ha, hx⟩
  · have := h1 _ (List.mem_append_left _ hfound)
    simp [PhaseOne, IsAuthCall, Query.isLog, Query.isWrite] at this
  · have : Grant.refreshToken = hf := Option.some.inj (hreg.symm.trans hreg')
    subst this
    obtain ⟨hauth, hcalls⟩ := authTrace_authenticated ha
    obtain ⟨cid, hcl⟩ : ∃ cid, ⟨.findClientById cid, (some c, none)⟩ ∈ t1 := by
      rcases hauth with ⟨cid, _, _, _, h2, _⟩ | ⟨_, _, _, cid, _, _, _, h2⟩
      · exact ⟨cid, h2⟩
      · exact ⟨cid, h2⟩
    obtain ⟨now, t3, ⟨err, hxe, rfl⟩ | ⟨res, hxo, rfl⟩⟩ := runs_execute hx
    · rw [← List.append_assoc] at heq
      obtain ⟨rfl, h2⟩ := List.append_inj' heq rfl
      exfalso
      have hf3 : ⟨.findOAuthTokenByRefreshToken k, (some old0, none)⟩ ∈ t3 := by
        simp only [List.mem_append, List.mem_cons] at hfound
        rcases hfound with hm | hm | hm
        · rcases hcalls _ hm with h' | h'
          · exact h'.elim
          · cases h'
        · cases hm
        · exact hm
      rcases refresh_err hxe with h3 | ⟨x, hx3, hb⟩ | ⟨old, ho, h4 | ⟨info, hi, h5⟩⟩
      · unfold Grant.refreshToken at hxe
        rcases xerr_bind.1 hxe with h' | ⟨_, _, _, rfl, h0, hx1⟩
        · have := allQ_runs (allQ_needParam (P := fun q => q.isLog = true) (by intros; rfl)) h' _ hf3
          cases this
        · exact (xok_needParam.1 h0).2.1 h3
      · exact hb (hgood x (by simp [hx3]))
      · exact h4 (hlive _ old now (List.mem_append_right _ (List.mem_cons_of_mem _ ho)) (by simp))
      · obtain ⟨hc, ws, hw, hoff⟩ := hinfo cid c _ info (by simp [hcl])
          (List.mem_append_right _ (List.mem_cons_of_mem _ hi))
        rcases h5 with h5 | h5
        · exact h5 hc
        · have : Scope.includes info.scope b!"offline_access" = true := (C46_include hw).2 hoff
          rw [show Scope.includeOfflineAccess info.scope = Scope.includes info.scope b!"offline_access" from rfl,
            this] at h5
          cases h5
    · have : pre ++ [wrote resp] = (t1 ++ ⟨.now, now⟩ :: t3 ++ [logged ⟨.debug, b!"token_endpoint",
          r.formValue b!"grant_type", .accessTokenGranted, [pClient c]⟩]) ++
          [wrote ⟨200, commonHeaders, res.json⟩] := by simpa using heq
      obtain ⟨_, h2⟩ := List.append_inj' this rfl
      cases h2
      rfl

example : Registered Sample.tokenCfg (Sample.post Sample.refreshBody) Grant.refreshToken := rfl
example : ∃ pre resp, Steps (handler Sample.tokenCfg Sample.lib (Sample.post Sample.refreshBody))
    (pre ++ [wrote resp]) ∧ resp.status = 200 := ({} : Sample.World).steps (by decide +kernel)
example : ({ now := 950 + 7200 } : Sample.World).status (handler Sample.tokenCfg Sample.lib
    (Sample.post Sample.refreshBody)) = some 200 := by decide +kernel
example : ({ now := 950 + 7201 } : Sample.World).status (handler Sample.tokenCfg Sample.lib
    (Sample.post Sample.refreshBody)) = some 400 := by decide +kernel

/-! ## C17: the refresh half -/

/-- Acceptance implies the refresh token is not past its lifetime as mathematical integers, even if
the 64-bit sum overflows. -/
theorem C17_refresh_sound (hreg : Registered cfg r Grant.refreshToken)
    (h : Steps (handler cfg lib r) (pre ++ [wrote resp])) (h200 : resp.status = 200)
    {k old n} (ho : ⟨.findOAuthTokenByRefreshToken k, (some old, none)⟩ ∈ pre) (hn : ⟨.now, n⟩ ∈ pre)
    (h1 : 0 ≤ old.createdAt.toInt) (h2 : 0 ≤ old.refreshTokenExpiresIn.toInt) :
    n.toInt ≤ old.createdAt.toInt + old.refreshTokenExpiresIn.toInt := by
  obtain ⟨c, auth, now, old', info, tk, res, g1, g2, g3, g4, g5, g6, _⟩ := C16_refresh hreg h h200
  have := (g3 n).1 hn
  subst this
  have hm := (mem_dataCalls (e := ⟨.findOAuthTokenByRefreshToken k, (some old, none)⟩) rfl).2 ho
  rw [g4] at hm
  simp only [List.mem_append, List.mem_cons, List.not_mem_nil, or_false] at hm
  rcases hm with hm | hm | hm | hm
  · exact absurd hm (mem_auth_absurd g2 (by simp [IsAuthCall]))
  · cases hm
    have := not_expired_sound h2 h1 g6
    omega
  · cases hm
  · cases hm

/-- Without overflow, a refresh token within its lifetime passes the expiry check. -/
theorem refreshLive_of {old : OAuthToken} {n : Int64}
    (h1 : 0 ≤ old.createdAt.toInt) (h2 : 0 ≤ old.refreshTokenExpiresIn.toInt)
    (hov : old.createdAt.toInt + old.refreshTokenExpiresIn.toInt < 2 ^ 63)
    (hn : n.toInt ≤ old.createdAt.toInt + old.refreshTokenExpiresIn.toInt) : RefreshLive old n :=
  not_expired_complete h2 h1 (by omega) (by omega)

/-- An expiry sum that overflows is rejected by any non-negative clock. -/
theorem not_refreshLive_of_overflow {old : OAuthToken} {n : Int64} (h1 : 0 ≤ old.createdAt.toInt)
    (h2 : 0 ≤ old.refreshTokenExpiresIn.toInt)
    (hov : 2 ^ 63 ≤ old.createdAt.toInt + old.refreshTokenExpiresIn.toInt) (hn : 0 ≤ n.toInt) :
    ¬ RefreshLive old n := by
  unfold RefreshLive
  rw [Int64.lt_iff_toInt_lt, Int64.toInt_add]
  have := int64_bounds old.createdAt
  have := int64_bounds old.refreshTokenExpiresIn
  simp only [Int.bmod_def]
  split <;> omega

/-! ## C18 -/

/-- A 200 answer to a password request: the non-empty username and password were accepted by
`FindUserId`, and the token is for the authorization of that user, the authenticated client and the
requested scope. -/
theorem C18_password (hreg : Registered cfg r Grant.password)
    (h : Steps (handler cfg lib r) (pre ++ [wrote resp])) (h200 : resp.status = 200) :
    ∃ c auth uid info tk res,
      Authenticated cfg lib r c auth ∧ (∀ e ∈ auth, IsAuthCall e.q) ∧
      dataCalls pre = auth ++
        [⟨.findUserId (r.formValue b!"username") (r.formValue b!"password"), (uid, none)⟩,
         ⟨.createOrUpdateAuthInfo uid c.id (r.formValue b!"scope"), (some info, none)⟩,
         ⟨.createOAuthToken (some info) true, (some tk, none)⟩] ∧
      r.formValue b!"username" ≠ [] ∧ r.formValue b!"password" ≠ [] ∧
      resp.body = Response.json res ∧
      res.tokenType = b!"Bearer" ∧ res.accessToken = tk.accessToken ∧ res.expiresIn = tk.accessTokenExpiresIn ∧
      res.refreshToken = tk.refreshToken ∧ res.scope = info.scope ∧ res.idToken = [] := by
  obtain ⟨c, auth, now, t2, res, h1, h2, h3, _, hok, h4, h5⟩ := grant_200 hreg .password h h200
  obtain ⟨uid, info, tk, hu, hp, _, rfl, rfl⟩ := password_ok hok
  refine ⟨c, auth, uid, info, tk, _, h1, h2, ?_, hu, hp, by rw [h5], rfl, rfl, rfl, rfl, rfl, rfl⟩
  rw [h4]; simp [dataCalls, Query.isData]

example : Registered Sample.tokenCfg (Sample.post Sample.passwordBody) Grant.password := rfl
example : ∃ pre resp, Steps (handler Sample.tokenCfg Sample.lib (Sample.post Sample.passwordBody))
    (pre ++ [wrote resp]) ∧ resp.status = 200 := ({} : Sample.World).steps (by decide +kernel)

/-! ## C19 -/

/-- A 200 answer to a client-credentials request: the client has an owner, and the token is for the
authorization of that owner, that client and the requested scope. -/
theorem C19_client_credentials (hreg : Registered cfg r Grant.clientCredentials)
    (h : Steps (handler cfg lib r) (pre ++ [wrote resp])) (h200 : resp.status = 200) :
    ∃ c auth info tk res,
      Authenticated cfg lib r c auth ∧ (∀ e ∈ auth, IsAuthCall e.q) ∧
      dataCalls pre = auth ++
        [⟨.createOrUpdateAuthInfo c.ownerUserId c.id (r.formValue b!"scope"), (some info, none)⟩,
         ⟨.createOAuthToken (some info) true, (some tk, none)⟩] ∧
      0 ≤ c.ownerUserId.toInt ∧
      resp.body = Response.json res ∧
      res.tokenType = b!"Bearer" ∧ res.accessToken = tk.accessToken ∧ res.expiresIn = tk.accessTokenExpiresIn ∧
      res.refreshToken = tk.refreshToken ∧ res.scope = info.scope ∧ res.idToken = [] := by
  obtain ⟨c, auth, now, t2, res, h1, h2, h3, _, hok, h4, h5⟩ := grant_200 hreg .clientCredentials h h200
  obtain ⟨info, tk, ho, _, rfl, rfl⟩ := clientCredentials_ok hok
  refine ⟨c, auth, info, tk, _, h1, h2, ?_, ?_, by rw [h5], rfl, rfl, rfl, rfl, rfl, rfl⟩
  · rw [h4]; simp [dataCalls, Query.isData]
  · rw [Int64.lt_iff_toInt_lt] at ho
    simpa using ho

example : Registered Sample.tokenCfg (Sample.post Sample.ccBody) Grant.clientCredentials := rfl
example : ∃ pre resp, Steps (handler Sample.tokenCfg Sample.lib (Sample.post Sample.ccBody))
    (pre ++ [wrote resp]) ∧ resp.status = 200 := ({} : Sample.World).steps (by decide +kernel)

/-! ## C20, C63 -/

/-- The claim `k` of the token is the number `n`. -/
def NumClaim (tk : JwtToken) (k : GoStr) (n : Int64) : Prop :=
  tk.claim k = some (.float n) ∨ tk.claim k = some (.number (some n))

/-- The numeric `exp` claim of a token. -/
abbrev ExpClaim (tk : JwtToken) (exp : Int64) : Prop := NumClaim tk b!"exp" exp

theorem numClaim_iff {tk : JwtToken} {k n} : Assertion.numClaim (tk.claim k) = some n ↔ NumClaim tk k n := by
  unfold NumClaim Assertion.numClaim
  cases hc : tk.claim k with
  | none => simp
  | some v =>
    cases v with
    | float n => simp
    | number n => cases n <;> simp
    | str s => simp
    | other => simp

theorem expClaim_of {tk : JwtToken} {exp} (h : Assertion.numClaim (tk.claim b!"exp") = some exp) :
    ExpClaim tk exp := numClaim_iff.1 h

/-- The issue time handed to the application: the `iat` claim, or -1 when there is none. -/
theorem iat_getD (tk : JwtToken) :
    NumClaim tk b!"iat" ((Assertion.numClaim (tk.claim b!"iat")).getD (-1)) ∨
      ((∀ n, ¬ NumClaim tk b!"iat" n) ∧ (Assertion.numClaim (tk.claim b!"iat")).getD (-1) = -1) := by
  cases h : Assertion.numClaim (tk.claim b!"iat") with
  | none =>
    refine .inr ⟨fun n hn => ?_, rfl⟩
    rw [numClaim_iff.2 hn] at h
    cases h
  | some n => exact .inl (numClaim_iff.1 h)

theorem expOk_expClaim {tk : JwtToken} {exp wall} (he : ExpClaim tk exp)
    (h : NotExpired wall (tk.claim b!"exp")) : exp = 0 ∨ wall.toInt ≤ exp.toInt := by
  rcases he with he | he <;> rw [he] at h <;> obtain ⟨n, hn, h⟩ := h _ rfl <;> simp [IsTime] at hn <;>
    subst hn <;> exact h

/-- A 200 answer to a JWT-bearer request: the presented assertion's signature verified under the
authenticated client's registered key, it has an `exp`, was recorded for that client, is addressed to
this (non-empty) issuer, and the token is for the user found for its `sub`. -/
theorem C20_jwt_bearer (hreg : Registered cfg r (Grant.jwt lib))
    (h : Steps (handler cfg lib r) (pre ++ [wrote resp])) (h200 : resp.status = 200) :
    ∃ c auth tkn exp iat aud sub uid info tk res,
      Authenticated cfg lib r c auth ∧ (∀ e ∈ auth, IsAuthCall e.q) ∧
      r.formValue b!"assertion" ≠ [] ∧ VerifiedAssertion lib c (r.formValue b!"assertion") tkn ∧
      ExpClaim tkn exp ∧
      (NumClaim tkn b!"iat" iat ∨ ((∀ n, ¬ NumClaim tkn b!"iat" n) ∧ iat = -1)) ∧
      tkn.claimStr b!"aud" = some aud ∧ aud ≠ [] ∧ tkn.claimStr b!"sub" = some sub ∧
      dataCalls pre = auth ++
        [⟨.recordAssertionClaims c.id ((tkn.claimStr b!"jti").getD []) iat exp, none⟩,
         ⟨.issuer, aud⟩,
         ⟨.findUserIdBySubject sub, (uid, none)⟩,
         ⟨.createOrUpdateAuthInfo uid c.id (r.formValue b!"scope"), (some info, none)⟩,
         ⟨.createOAuthToken (some info) true, (some tk, none)⟩] ∧
      resp.body = Response.json res ∧
      res.tokenType = b!"Bearer" ∧ res.accessToken = tk.accessToken ∧ res.expiresIn = tk.accessTokenExpiresIn ∧
      res.refreshToken = tk.refreshToken ∧ res.scope = info.scope ∧ res.idToken = [] := by
  obtain ⟨c, auth, now, t2, res, h1, h2, h3, _, hok, h4, h5⟩ := grant_200 hreg .jwt h h200
  obtain ⟨tkn, k, wall, exp, aud, sub, uid, info, tk, ha, hd, hk, hv, _, _, _, hexp, haud, hne, hsub, _,
    rfl, rfl⟩ := jwt_ok hok
  refine ⟨c, auth, tkn, exp, _, aud, sub, uid, info, tk, _, h1, h2, ha, ⟨hd, k, hk, verifies_iff.1 hv⟩, expClaim_of hexp,
    iat_getD tkn, haud,
    hne, hsub, ?_, by rw [h5], rfl, rfl, rfl, rfl, rfl, rfl⟩
  rw [h4]; simp [dataCalls, Query.isData]

example : Registered Sample.tokenCfg (Sample.post Sample.jwtBody) (Grant.jwt Sample.lib) := rfl
example : ∃ pre resp, Steps (handler Sample.tokenCfg Sample.lib (Sample.post Sample.jwtBody))
    (pre ++ [wrote resp]) ∧ resp.status = 200 := ({} : Sample.World).steps (by decide +kernel)

/-- The part of C63 that holds, for the JWT grant: unless its `exp` is 0, an accepted assertion's
`exp` is not before the library's clock.  Missing: `exp = 0`, which golang-jwt takes as absent
(`C63_false`). -/
theorem C63_jwt_grant_partial (hreg : Registered cfg r (Grant.jwt lib))
    (h : Steps (handler cfg lib r) (pre ++ [wrote resp])) (h200 : resp.status = 200) :
    ∃ tkn exp wall, lib.jwtDecode (r.formValue b!"assertion") = some tkn ∧ ExpClaim tkn exp ∧
      ⟨.wallNow, wall⟩ ∈ pre ∧ (exp ≠ 0 → wall.toInt ≤ exp.toInt) := by
  obtain ⟨c, auth, now, t2, res, h1, h2, h3, hsub, hok, h4, h5⟩ := grant_200 hreg .jwt h h200
  obtain ⟨tkn, k, wall, exp, aud, sub, uid, info, tk, ha, hd, hk, hv, he, _, _, hexp, _, _, _, _,
    rfl, rfl⟩ := jwt_ok hok
  refine ⟨tkn, exp, wall, hd, expClaim_of hexp, hsub _ (by simp), fun hne => ?_⟩
  rcases expOk_expClaim (expClaim_of hexp) (expOk_iff.1 he) with h | h
  · exact absurd h hne
  · exact h

/-- The same for client assertions. -/
theorem C63_client_assertion_partial (hs : ∀ h, Registered cfg r h → Silent h)
    (h : Steps (handler cfg lib r) (pre ++ [wrote resp])) (h200 : resp.status = 200)
    (hno : ∀ cid sec b, ¬ Presented cfg.acceptance r cid sec b) :
    ∃ ca tkn exp wall, PresentedAssertion r ca ∧ lib.jwtDecode ca = some tkn ∧ ExpClaim tkn exp ∧
      ⟨.wallNow, wall⟩ ∈ pre ∧ (exp ≠ 0 → wall.toInt ≤ exp.toInt) := by
  obtain ⟨_, _, hf, c, t1, now, t2, res, hreg, ha, hok, rfl, rfl⟩ := token_200 hs h h200
  cases ha with
  | secret cid sec b hp => exact absurd hp (hno _ _ _)
  | assertion ca hn hacc hpa hrun =>
    obtain ⟨tk, sub, wall, exp, aud, hv, hsub, h1, h2, h3, h4, h5, h6, rfl⟩ := runs_byAssertion hrun
    refine ⟨ca, tk, exp, wall, hpa, hv.1, expClaim_of h4, by simp, fun hne => ?_⟩
    rcases expOk_expClaim (expClaim_of h4) h1 with h | h
    · exact absurd h hne
    · exact h

/-- C75 for the JWT grant: at the library's clock no claim of an accepted assertion says that it has expired
or that its time has not yet come. -/
theorem C75_jwt_grant (hreg : Registered cfg r (Grant.jwt lib))
    (h : Steps (handler cfg lib r) (pre ++ [wrote resp])) (h200 : resp.status = 200) :
    ∃ tkn wall, lib.jwtDecode (r.formValue b!"assertion") = some tkn ∧ ⟨.wallNow, wall⟩ ∈ pre ∧
      NotExpired wall (tkn.claim b!"exp") ∧ NotEarly wall (tkn.claim b!"iat") ∧ NotEarly wall (tkn.claim b!"nbf") := by
  obtain ⟨c, auth, now, t2, res, h1, h2, h3, hsub, hok, h4, h5⟩ := grant_200 hreg .jwt h h200
  obtain ⟨tkn, k, wall, exp, aud, sub, uid, info, tk, ha, hd, hk, hv, he, hi, hb, hexp, _, _, _, _,
    rfl, rfl⟩ := jwt_ok hok
  exact ⟨tkn, wall, hd, hsub _ (by simp), expOk_iff.1 he, notBeforeOk_iff.1 hi, notBeforeOk_iff.1 hb⟩

/-- C75 for client assertions. -/
theorem C75_client_assertion (hs : ∀ h, Registered cfg r h → Silent h)
    (h : Steps (handler cfg lib r) (pre ++ [wrote resp])) (h200 : resp.status = 200)
    (hno : ∀ cid sec b, ¬ Presented cfg.acceptance r cid sec b) :
    ∃ ca tkn wall, PresentedAssertion r ca ∧ lib.jwtDecode ca = some tkn ∧ ⟨.wallNow, wall⟩ ∈ pre ∧
      NotExpired wall (tkn.claim b!"exp") ∧ NotEarly wall (tkn.claim b!"iat") ∧ NotEarly wall (tkn.claim b!"nbf") := by
  obtain ⟨_, _, hf, c, t1, now, t2, res, hreg, ha, hok, rfl, rfl⟩ := token_200 hs h h200
  cases ha with
  | secret cid sec b hp => exact absurd hp (hno _ _ _)
  | assertion ca hn hacc hpa hrun =>
    obtain ⟨tk, sub, wall, exp, aud, hv, hsub, h1, h2, h3, h4, h5, h6, rfl⟩ := runs_byAssertion hrun
    exact ⟨ca, tk, wall, hpa, hv.1, by simp, h1, h2, h3⟩

/-- What the times mean: a numeric `exp` other than 0 is not before the clock, numeric `iat` and `nbf` not after. -/
theorem C75_meaning {now n : Int64} (hn : n ≠ 0) :
    (NotExpired now (some (.float n)) ↔ now.toInt ≤ n.toInt) ∧ (NotEarly now (some (.float n)) ↔ n.toInt ≤ now.toInt) := by
  unfold NotExpired NotEarly IsTime
  simp [hn]

/-- A library that decodes `tok` to a token with the times `iat` and `nbf`. -/
def datedLib (iat nbf : Int64) : Lib :=
  { Sample.lib with
    jwtDecode := fun s => if s = b!"tok" then some { Sample.jwt with
      claims := [(b!"sub", .str b!"client"), (b!"aud", .str b!"https://issuer"), (b!"exp", .float 2000),
        (b!"iat", .float iat), (b!"nbf", .float nbf)] } else none
    jwtDecode_raw := fun s t h => by
      split at h
      · rename_i hs; cases h; exact hs.symm
      · cases h }

/-- An assertion with all three times is accepted, as a grant and as a client assertion; with `iat` or `nbf` after the
clock (1000) it is not. -/
example : ∃ pre resp, Steps (handler { Sample.tokenCfg with handlers := [(Grant.typeJWT, Grant.jwt (datedLib 900 1000))] }
    (datedLib 900 1000) (Sample.post Sample.jwtBody)) (pre ++ [wrote resp]) ∧ resp.status = 200 :=
  ({} : Sample.World).steps (by decide +kernel)
example : ∃ pre resp, Steps (handler Sample.tokenCfg (datedLib 900 1000) (Sample.postAssertion b!"tok" Sample.ccBody))
    (pre ++ [wrote resp]) ∧ resp.status = 200 := ({} : Sample.World).steps (by decide +kernel)
example : ({} : Sample.World).status (handler Sample.tokenCfg (datedLib 900 1001)
    (Sample.postAssertion b!"tok" Sample.ccBody)) = some 400 := by decide +kernel
example : ({} : Sample.World).status (handler Sample.tokenCfg (datedLib 1001 900)
    (Sample.postAssertion b!"tok" Sample.ccBody)) = some 400 := by decide +kernel

/-- A library that decodes `tok` to a token whose `exp` is 0. -/
def zeroExpLib : Lib :=
  { Sample.lib with
    jwtDecode := fun s => if s = b!"tok" then some { Sample.jwt with
      claims := [(b!"sub", .str b!"client"), (b!"aud", .str b!"https://issuer"), (b!"exp", .float 0)] } else none
    jwtDecode_raw := fun s t h => by
      split at h
      · rename_i hs; cases h; exact hs.symm
      · cases h }

/-- C63 does not hold in general: an assertion with `exp: 0` is accepted at any time. -/
theorem C63_false : ¬ ∀ (cfg : TokenCfg) (lib : Lib) (r : Req) (pre : List Event) (resp : HttpResp),
    Registered cfg r (Grant.jwt lib) →
    Steps (handler cfg lib r) (pre ++ [wrote resp]) → resp.status = 200 →
    ∃ tkn exp wall, lib.jwtDecode (r.formValue b!"assertion") = some tkn ∧ ExpClaim tkn exp ∧
      ⟨.wallNow, wall⟩ ∈ pre ∧ wall.toInt ≤ exp.toInt := by
  intro hall
  let w : Sample.World := {}
  let r := Sample.post Sample.jwtBody
  let cfg : TokenCfg := { Sample.tokenCfg with handlers := [(Grant.typeJWT, Grant.jwt zeroExpLib)] }
  have hst : (lastWrite (w.run (handler cfg zeroExpLib r)).1).map (·.status) = some 200 := by
    decide +kernel
  have hno : ((w.run (handler cfg zeroExpLib r)).1.all fun e => match e with
      | ⟨.wallNow, n⟩ => decide (n = 1000)
      | _ => true) = true := by decide +kernel
  cases hl : lastWrite (w.run (handler cfg zeroExpLib r)).1 with
  | none => rw [hl] at hst; cases hst
  | some resp =>
    rw [hl] at hst
    obtain ⟨pre, he⟩ := lastWrite_eq hl
    have hr := runs_steps (w.runs (handler cfg zeroExpLib r))
    rw [he] at hr hno
    obtain ⟨tkn, exp, wall, hd, hx, hm, hle⟩ := hall cfg zeroExpLib r pre resp rfl hr (by simpa using hst)
    have h1 := List.all_eq_true.1 hno _ (List.mem_append_left _ hm)
    have hw : wall = 1000 := by simpa using h1
    have hf : r.formValue b!"assertion" = b!"tok" := by decide +kernel
    rw [hf] at hd
    simp only [zeroExpLib, if_true, Option.some.injEq] at hd
    subst hd
    have : exp = 0 := by
      rcases hx with hx | hx
      · simpa [JwtToken.claim] using hx.symm
      · simp [JwtToken.claim] at hx
    subst this hw
    exact absurd hle (by decide)

/-! ## C22 -/

/-- In the direct grants, whenever an authorization is stored the client has authenticated, the
authorization is for that client, and its scope is the request's scope parameter, which is empty or
allowed to the client for direct grants. -/
theorem C22_direct_scope
    (hreg : Registered cfg r Grant.password ∨ Registered cfg r Grant.clientCredentials ∨
      Registered cfg r (Grant.jwt lib)) {uid cid scp x}
    (h : Steps (handler cfg lib r) (pre ++ ⟨.createOrUpdateAuthInfo uid cid scp, x⟩ :: post)) :
    ∃ c, Authenticated cfg lib r c pre ∧ cid = c.id ∧ scp = r.formValue b!"scope" ∧
      (scp = [] ∨ c.canUseScope .directGrant scp = true) := by
  obtain ⟨hf, c, t1, mid, hreg', rfl, ha, hx⟩ := phase_two h
    (by simp [PhaseOne, IsAuthCall, Query.isLog, Query.isWrite])
  refine ⟨c, authenticated_mono (authTrace_authenticated ha).1 (by simp +contextual), ?_⟩
  let P : Query → Prop := fun q => ∀ uid cid scp, q = .createOrUpdateAuthInfo uid cid scp →
    cid = c.id ∧ scp = r.formValue b!"scope" ∧ (scp = [] ∨ c.canUseScope .directGrant scp = true)
  have hP : AllQ P (executeGrantHandler cfg r c (r.formValue b!"grant_type") hf) := by
    unfold executeGrantHandler
    refine allQ_bind (allQ_ask (by simp [P])) fun now => allQ_bind ?_ fun res => ?_
    · have hd : ∀ u s, Grant.DirectScope r c s → P (.createOrUpdateAuthInfo u c.id s) := by
        intro u s hds uid cid scp he
        cases he
        exact ⟨rfl, hds.1, hds.2⟩
      rcases hreg with h1 | h1 | h1 <;> (have := Option.some.inj (h1.symm.trans hreg'); subst this)
      · exact Grant.allQ_password (by simp [P]) (by simp [P]) hd (by simp [P])
      · exact Grant.allQ_clientCredentials (by simp [P]) hd (by simp [P])
      · exact Grant.allQ_jwt (by simp [P]) (by simp [P]) (by simp [P]) (by simp [P]) (by simp [P]) hd (by simp [P])
    · cases res with
      | error e => exact allQ_ask (by simp [P])
      | ok a => exact allQ_bind (allQ_ask (by simp [P])) fun _ => allQ_ask (by simp [P])
  exact allQ_steps hP hx ⟨.createOrUpdateAuthInfo uid cid scp, x⟩ (by simp) uid cid scp rfl

/-- Other built-in grants never store authorizations. -/
theorem C22_other_grants
    (hreg : Registered cfg r (Grant.authorizationCode lib) ∨ Registered cfg r Grant.refreshToken) {uid cid scp x}
    (h : Steps (handler cfg lib r) t) : ⟨.createOrUpdateAuthInfo uid cid scp, x⟩ ∉ t := by
  intro hm
  obtain ⟨pre, post, rfl⟩ := List.append_of_mem hm
  obtain ⟨hf, c, t1, mid, hreg', rfl, ha, hx⟩ := phase_two h
    (by simp [PhaseOne, IsAuthCall, Query.isLog, Query.isWrite])
  let P : Query → Prop := fun q => ∀ uid cid scp, q ≠ .createOrUpdateAuthInfo uid cid scp
  have hP : AllQ P (executeGrantHandler cfg r c (r.formValue b!"grant_type") hf) := by
    unfold executeGrantHandler
    refine allQ_bind (allQ_ask (by simp [P])) fun now => allQ_bind ?_ fun res => ?_
    · rcases hreg with h1 | h1 <;> (have := Option.some.inj (h1.symm.trans hreg'); subst this)
      · exact Grant.allQ_authorizationCode (by simp [P]) (by simp [P]) (by simp [P]) (by simp [P]) (by simp [P])
          (by simp [P])
      · exact Grant.allQ_refreshToken (by simp [P]) (by simp [P]) (by simp [P]) (by simp [P])
    · cases res with
      | error e => exact allQ_ask (by simp [P])
      | ok a => exact allQ_bind (allQ_ask (by simp [P])) fun _ => allQ_ask (by simp [P])
  exact allQ_steps hP hx ⟨.createOrUpdateAuthInfo uid cid scp, x⟩ (by simp) uid cid scp rfl

/-- Whether an authorization is stored in the trace. -/
def storesInfo (t : List Event) : Bool := t.any fun e => match e.q with
  | .createOrUpdateAuthInfo _ _ _ => true
  | _ => false

example : storesInfo (({} : Sample.World).run (handler Sample.tokenCfg Sample.lib
    (Sample.post Sample.passwordBody))).1 = true := by decide +kernel
example : storesInfo (({} : Sample.World).run (handler Sample.tokenCfg Sample.lib
    (Sample.post ((b!"scope", b!"admin") :: Sample.passwordBody)))).1 = false := by decide +kernel

end Goidc.Props
