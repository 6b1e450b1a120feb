import Verif.Lemmas.GrantAnatomy
import Verif.Props.TokenEndpoint

/-! # C09, C10, C11, C13, C14: the authorization_code grant -/

namespace Goidc.Props

open Spec TokenEndpoint

variable {cfg : TokenCfg} {lib : Lib} {r : Req} {pre post t : List Event} {resp : HttpResp}

/-- Everything a 200 answer to a code exchange implies. -/
theorem code_200 (hreg : Registered cfg r (Grant.authorizationCode lib))
    (h : Steps (handler cfg lib r) (pre ++ [wrote resp])) (h200 : resp.status = 200) :
    ∃ c auth now sess info tk idc res,
      Authenticated cfg lib r c auth ∧ (∀ e ∈ auth, IsAuthCall e.q) ∧
      (∀ n, ⟨.now, n⟩ ∈ pre ↔ n = now) ∧
      dataCalls pre = auth ++
        [⟨.findAuthSessionByCode (r.formValue b!"code"), (some sess, none)⟩,
         ⟨.findActiveAuthInfoById sess.authId, (some info, none)⟩,
         ⟨.createOAuthToken (some info) true, (some tk, none)⟩,
         ⟨.disableSession sess, none⟩] ++ idc ∧
      r.formValue b!"code" ≠ [] ∧ r.formValue b!"redirect_uri" ≠ [] ∧
      sess.redirectURI = r.formValue b!"redirect_uri" ∧ info.clientId = c.id ∧
      PkceOk lib r sess.codeVerifier ∧
      ((Scope.includeOpenID info.scope = true ∧ ∃ iss idt, idc = [⟨.issuer, iss⟩] ∧
          IdToken.gen lib c.idTokenAlg c.idTokenKey c.idTokenKeyId iss info.clientId info.subject
            sess.nonce sess.idTokenExpiresIn sess.authTime now = some idt ∧
          res = { Grant.mkResponse tk info.scope with idToken := idt }) ∨
       (Scope.includeOpenID info.scope = false ∧ idc = [] ∧ res = Grant.mkResponse tk info.scope)) ∧
      resp = ⟨200, commonHeaders, res.json⟩ := by
  obtain ⟨c, auth, now, t2, res, h1, h2, h3, _, hok, h4, h5⟩ := grant_200 hreg .authorizationCode h h200
  obtain ⟨sess, info, tk, tid, hu, hc, rfl, hci, hru, hp, hid⟩ := authorizationCode_ok hok
  have hnow : ∀ n, ¬ (⟨.now, n⟩ : Event) ∈ tid := by
    intro n hn
    rcases hid with ⟨_, iss, idt, rfl, _⟩ | ⟨_, rfl, _⟩
    · simp at hn
    · cases hn
  refine ⟨c, auth, now, sess, info, tk, dataCalls tid, res, h1, h2, fun n => ?_, ?_, hc, hu, hru, hci, hp, ?_, h5⟩
  · rw [h3]; simp [hnow]
  · rw [h4]; simp [dataCalls, Query.isData]
  · rcases hid with ⟨ho, iss, idt, rfl, hg, hr⟩ | ⟨ho, rfl, hr⟩
    · exact .inl ⟨ho, iss, idt, by simp [dataCalls, Query.isData], hg, hr⟩
    · exact .inr ⟨ho, rfl, hr⟩

/-- A code exchange looks up one session. -/
theorem code_200_session (hreg : Registered cfg r (Grant.authorizationCode lib))
    (h : Steps (handler cfg lib r) (pre ++ [wrote resp])) (h200 : resp.status = 200)
    {k sess} (hs : ⟨.findAuthSessionByCode k, (some sess, none)⟩ ∈ pre) :
    k = r.formValue b!"code" ∧ PkceOk lib r sess.codeVerifier ∧
      sess.redirectURI = r.formValue b!"redirect_uri" := by
  obtain ⟨c, auth, now, sess', info, tk, idc, res, h1, h2, h3, h4, h5, h6, h7, h8, h9, h10, h11⟩ :=
    code_200 hreg h h200
  have hm := (mem_dataCalls (e := ⟨.findAuthSessionByCode k, (some sess, none)⟩) rfl).2 hs
  have hidc : ∀ e ∈ idc, ∃ iss, e = ⟨.issuer, iss⟩ := by
    rcases h10 with ⟨_, iss, _, rfl, _⟩ | ⟨_, rfl, _⟩
    · intro e he; exact ⟨iss, by simpa using he⟩
    · intro e he; cases he
  rw [h4] at hm
  simp only [List.mem_append, List.mem_cons, List.not_mem_nil, or_false] at hm
  rcases hm with (hm | hm | hm | hm | hm) | hm
  · exact absurd hm (mem_auth_absurd h2 (by simp [IsAuthCall]))
  · cases hm; exact ⟨rfl, h9, h7⟩
  · cases hm
  · cases hm
  · cases hm
  · obtain ⟨iss, he⟩ := hidc _ hm
    cases he

/-! ## C09 -/

/-- A 200 answer to a code exchange: the calls made are, after those that authenticated the client,
the lookup of the presented code, the lookup of the session's authorization, the token creation and
the burning of the session (and the issuer for an ID token); the session's redirect URI is the
presented one and the authorization belongs to the authenticated client. -/
theorem C09_code_bound (hreg : Registered cfg r (Grant.authorizationCode lib))
    (h : Steps (handler cfg lib r) (pre ++ [wrote resp])) (h200 : resp.status = 200) :
    ∃ c auth sess info tk idc,
      Authenticated cfg lib r c auth ∧ (∀ e ∈ auth, IsAuthCall e.q) ∧
      (∀ e ∈ idc, ∃ iss, e = ⟨.issuer, iss⟩) ∧
      dataCalls pre = auth ++
        [⟨.findAuthSessionByCode (r.formValue b!"code"), (some sess, none)⟩,
         ⟨.findActiveAuthInfoById sess.authId, (some info, none)⟩,
         ⟨.createOAuthToken (some info) true, (some tk, none)⟩,
         ⟨.disableSession sess, none⟩] ++ idc ∧
      r.formValue b!"code" ≠ [] ∧ r.formValue b!"redirect_uri" ≠ [] ∧
      sess.redirectURI = r.formValue b!"redirect_uri" ∧ info.clientId = c.id := by
  obtain ⟨c, auth, now, sess, info, tk, idc, res, h1, h2, h3, h4, h5, h6, h7, h8, h9, h10, h11⟩ :=
    code_200 hreg h h200
  refine ⟨c, auth, sess, info, tk, idc, h1, h2, ?_, h4, h5, h6, h7, h8⟩
  rcases h10 with ⟨_, iss, _, rfl, _⟩ | ⟨_, rfl, _⟩
  · intro e he; exact ⟨iss, by simpa using he⟩
  · intro e he; cases he

/-- The response carries the token that was created for that authorization. -/
theorem C09_response (hreg : Registered cfg r (Grant.authorizationCode lib))
    (h : Steps (handler cfg lib r) (pre ++ [wrote resp])) (h200 : resp.status = 200) :
    ∃ info tk res, ⟨.createOAuthToken (some info) true, (some tk, none)⟩ ∈ pre ∧ resp.body = Response.json res ∧
      res.tokenType = b!"Bearer" ∧ res.accessToken = tk.accessToken ∧
      res.expiresIn = tk.accessTokenExpiresIn ∧ res.refreshToken = tk.refreshToken ∧ res.scope = info.scope := by
  obtain ⟨c, auth, now, sess, info, tk, idc, res, h1, h2, h3, h4, h5, h6, h7, h8, h9, h10, h11⟩ :=
    code_200 hreg h h200
  refine ⟨info, tk, res, (mem_dataCalls rfl).1 (by rw [h4]; simp), by rw [h11], ?_⟩
  rcases h10 with ⟨_, iss, idt, _, _, rfl⟩ | ⟨_, _, rfl⟩ <;>
    exact ⟨rfl, rfl, rfl, rfl, rfl⟩

theorem sample_code_registered :
    Registered Sample.tokenCfg (Sample.post Sample.codeBody) (Grant.authorizationCode Sample.lib) := rfl

theorem sample_code_200 : ∃ pre resp, Steps (handler Sample.tokenCfg Sample.lib (Sample.post Sample.codeBody))
    (pre ++ [wrote resp]) ∧ resp.status = 200 := ({} : Sample.World).steps (by decide +kernel)

example : ({} : Sample.World).status (handler Sample.tokenCfg Sample.lib
    (Sample.post ((b!"redirect_uri", b!"https://evil/") :: Sample.codeBody))) = some 400 := by decide +kernel

/-! ## C10 -/

/-- If the session carries a code verifier, a 200 answer requires a supported challenge method and a
challenge matching the verifier: equal to it for `plain`, its unpadded base64url SHA-256 for `S256`. -/
theorem C10_pkce (hreg : Registered cfg r (Grant.authorizationCode lib))
    (h : Steps (handler cfg lib r) (pre ++ [wrote resp])) (h200 : resp.status = 200)
    {k sess} (hs : ⟨.findAuthSessionByCode k, (some sess, none)⟩ ∈ pre) (hv : sess.codeVerifier ≠ []) :
    r.formValue b!"code_challenge" ≠ [] ∧
    ((r.formValue b!"code_challenge_method" = b!"plain" ∧
        r.formValue b!"code_challenge" = sess.codeVerifier) ∨
     (r.formValue b!"code_challenge_method" = b!"S256" ∧
        r.formValue b!"code_challenge" = base64url (lib.sha256 sess.codeVerifier))) := by
  obtain ⟨_, hp, _⟩ := code_200_session hreg h h200 hs
  rcases hp with hp | ⟨_, hc, v, hf, hvf⟩
  · exact absurd hp hv
  · refine ⟨hc, ?_⟩
    unfold Pkce.findVerifierByMethod at hf
    split at hf
    · rename_i hm
      cases hf
      exact .inl ⟨hm, by simpa [Pkce.Verifier.verify] using hvf⟩
    · split at hf
      · rename_i _ hm
        cases hf
        refine .inr ⟨hm, ?_⟩
        have : Pkce.s256Encode lib sess.codeVerifier = r.formValue b!"code_challenge" := by
          simpa [Pkce.Verifier.verify] using hvf
        rw [← this, Pkce.s256Encode, C52_is_base64url]
      · cases hf

example : Sample.session.codeVerifier ≠ [] := by decide
example : ({} : Sample.World).status (handler Sample.tokenCfg Sample.lib (Sample.post
    (Sample.codeBody.take 3))) = some 400 := by decide +kernel

/-! ## C11 -/

/-- A session is past its lifetime at time `now`. -/
def SessionExpired (sess : AuthSession) (now : Int64) : Prop :=
  sess.createdAt.toInt + sess.expiresIn.toInt < now.toInt

instance (s n) : Decidable (SessionExpired s n) := by unfold SessionExpired; infer_instance

/-- The part of C11 that holds: the grant succeeds only with a session the application returned, so an
application whose `FindAuthSessionByCode` never returns an expired session is safe.  Missing: goidc
itself never compares the session's lifetime with the clock (`C11_false`). -/
theorem C11_expired_partial (hreg : Registered cfg r (Grant.authorizationCode lib))
    (h : Steps (handler cfg lib r) (pre ++ [wrote resp])) (h200 : resp.status = 200)
    (hstore : ∀ k sess n, ⟨.findAuthSessionByCode k, (some sess, none)⟩ ∈ pre → ⟨.now, n⟩ ∈ pre →
      ¬ SessionExpired sess n) :
    ∃ sess now, ⟨.findAuthSessionByCode (r.formValue b!"code"), (some sess, none)⟩ ∈ pre ∧
      ⟨.now, now⟩ ∈ pre ∧ ¬ SessionExpired sess now := by
  obtain ⟨c, auth, now, sess, info, tk, idc, res, h1, h2, h3, h4, _⟩ := code_200 hreg h h200
  have hm : ⟨.findAuthSessionByCode (r.formValue b!"code"), (some sess, none)⟩ ∈ pre :=
    (mem_dataCalls rfl).1 (by rw [h4]; simp)
  have hn := (h3 now).2 rfl
  exact ⟨sess, now, hm, hn, hstore _ _ _ hm hn⟩

/-- Whether every session returned in the trace is expired at every clock reading of the trace. -/
def allExpired (t : List Event) : Bool :=
  t.all fun e => match e with
    | ⟨.findAuthSessionByCode _, (some s, none)⟩ =>
      t.all fun e => match e with
        | ⟨.now, n⟩ => decide (SessionExpired s n)
        | _ => true
    | _ => true

/-- C11 does not hold: a session that expired long ago is exchanged for a token. -/
theorem C11_false : ¬ ∀ (cfg : TokenCfg) (lib : Lib) (r : Req) (pre : List Event) (resp : HttpResp),
    Registered cfg r (Grant.authorizationCode lib) →
    Steps (handler cfg lib r) (pre ++ [wrote resp]) → resp.status = 200 →
    ∃ sess now, ⟨.findAuthSessionByCode (r.formValue b!"code"), (some sess, none)⟩ ∈ pre ∧
      ⟨.now, now⟩ ∈ pre ∧ ¬ SessionExpired sess now := by
  intro hall
  let w : Sample.World := { now := 1000000 }
  let r := Sample.post Sample.codeBody
  have hst : (lastWrite (w.run (handler Sample.tokenCfg Sample.lib r)).1).map (·.status) = some 200 := by
    decide +kernel
  have hno : allExpired (w.run (handler Sample.tokenCfg Sample.lib r)).1 = true := by decide +kernel
  cases hl : lastWrite (w.run (handler Sample.tokenCfg Sample.lib r)).1 with
  | none => rw [hl] at hst; cases hst
  | some resp =>
    rw [hl] at hst
    obtain ⟨pre, he⟩ := lastWrite_eq hl
    have hr := runs_steps (w.runs (handler Sample.tokenCfg Sample.lib r))
    rw [he] at hr hno
    obtain ⟨sess, now, hmem, hn, hc⟩ := hall _ _ _ _ _ sample_code_registered hr (by simpa using hst)
    have h1 := List.all_eq_true.1 hno _ (List.mem_append_left _ hmem)
    have h2 := List.all_eq_true.1 h1 _ (List.mem_append_left _ hn)
    exact hc (by simpa using h2)

/-! ## C13 -/

/-- At every point of every run: if a 200 has been written, `DisableSession` was called before, on the
session found for the presented code, and reported success. -/
theorem C13_burned_before_response (hreg : Registered cfg r (Grant.authorizationCode lib))
    (h : Steps (handler cfg lib r) t) (hw : wrote resp ∈ t) (h200 : resp.status = 200) :
    ∃ a b c post sess, t = a ++ ⟨.findAuthSessionByCode (r.formValue b!"code"), (some sess, none)⟩ :: b ++
      ⟨.disableSession sess, none⟩ :: c ++ wrote resp :: post := by
  obtain ⟨pre, post, rfl⟩ := List.append_of_mem hw
  have h' : Steps (handler cfg lib r) (pre ++ [wrote resp]) :=
    steps_of_append (t' := post) (by simpa using h)
  obtain ⟨_, _, hf', cl, t1, now, t2, res, hreg', ha, hok, rfl, rfl⟩ :=
    token_200 (registered_silent hreg .authorizationCode) h' h200
  have : Grant.authorizationCode lib = hf' := Option.some.inj (hreg.symm.trans hreg')
  subst this
  obtain ⟨sess, info, tk, tid, _, _, rfl, _⟩ := authorizationCode_ok hok
  exact ⟨t1 ++ [⟨.now, now⟩], [⟨.findActiveAuthInfoById sess.authId, (some info, none)⟩,
      ⟨.createOAuthToken (some info) true, (some tk, none)⟩], tid ++ [_], post, sess, by simp; rfl⟩

/-- So a run that stops before the session was disabled has released no token. -/
theorem C13_crash_safe (hreg : Registered cfg r (Grant.authorizationCode lib))
    (h : Steps (handler cfg lib r) t) (hno : ∀ sess, ⟨.disableSession sess, none⟩ ∉ t) :
    ∀ resp, wrote resp ∈ t → resp.status ≠ 200 := by
  intro resp hw h200
  obtain ⟨a, b, c, post, sess, rfl⟩ := C13_burned_before_response hreg h hw h200
  exact hno sess (by simp)

example : ∃ t resp, Steps (handler Sample.tokenCfg Sample.lib (Sample.post Sample.codeBody)) t ∧ wrote resp ∈ t ∧
    resp.status = 200 := by
  obtain ⟨pre, resp, h, h2⟩ := sample_code_200
  exact ⟨_, resp, h, by simp, h2⟩

/-! ## C14 -/

/-- A 200 answer to a code exchange contains an ID token exactly when `openid` is one of the tokens of
the authorization's scope; it is then signed with the client's key over exactly the issuer, client,
subject, expiry, nonce, issue time and authentication time of the session. -/
theorem C14_id_token (hreg : Registered cfg r (Grant.authorizationCode lib))
    (h : Steps (handler cfg lib r) (pre ++ [wrote resp])) (h200 : resp.status = 200) :
    ∃ c sess info now res,
      Authenticated cfg lib r c pre ∧
      ⟨.findAuthSessionByCode (r.formValue b!"code"), (some sess, none)⟩ ∈ pre ∧
      ⟨.findActiveAuthInfoById sess.authId, (some info, none)⟩ ∈ pre ∧
      (∀ n, ⟨.now, n⟩ ∈ pre ↔ n = now) ∧
      resp.body = Response.json res ∧
      ∀ ws, Words info.scope ws →
        (b!"openid" ∉ ws → res.idToken = []) ∧
        (b!"openid" ∈ ws → ∃ iss claims, ⟨.issuer, iss⟩ ∈ pre ∧
          SignedBy lib c.idTokenAlg c.idTokenKeyId claims c.idTokenKey res.idToken ∧
          ∀ k v, (k, v) ∈ claims ↔ CodeIdTokenClaims iss c.id info.subject sess.nonce
            (now + sess.idTokenExpiresIn) now sess.authTime k v) := by
  obtain ⟨c, auth, now, sess, info, tk, idc, res, h1, h2, h3, h4, h5, h6, h7, h8, h9, h10, h11⟩ :=
    code_200 hreg h h200
  have hsub : ∀ e ∈ auth, e ∈ pre := fun e he => by
    have : e ∈ dataCalls pre := by rw [h4]; simp [he]
    exact (List.mem_filter.1 this).1
  refine ⟨c, sess, info, now, res, authenticated_mono h1 hsub, (mem_dataCalls rfl).1 (by rw [h4]; simp),
    (mem_dataCalls rfl).1 (by rw [h4]; simp), h3, by rw [h11], fun ws hw => ⟨fun hno => ?_, fun hyes => ?_⟩⟩
  · rcases h10 with ⟨ho, _⟩ | ⟨_, _, rfl⟩
    · exact absurd ((C46_include hw).1 ho) hno
    · rfl
  · rcases h10 with ⟨_, iss, idt, rfl, hg, rfl⟩ | ⟨ho, _⟩
    · obtain ⟨claims, hs, hc⟩ := gen_signed hg
      rw [h8] at hc
      exact ⟨iss, claims, (mem_dataCalls rfl).1 (by rw [h4]; simp), hs, hc⟩
    · have : Scope.includes info.scope b!"openid" = true := (C46_include hw).2 hyes
      rw [show Scope.includeOpenID info.scope = Scope.includes info.scope b!"openid" from rfl, this] at ho
      cases ho

example : Words Sample.info.scope [b!"openid", b!"offline_access"] := by decide +kernel

end Goidc.Props
