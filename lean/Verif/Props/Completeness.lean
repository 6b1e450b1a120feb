import Verif.Lemmas.Accept
import Verif.Props.Grants
import Verif.Props.PureStrings

/-!
# C68: requests that meet the conditions are granted (and the other half of C16, C17)

`Answered t q x` (Spec/Accept.lean): whenever the application was asked `q` in the run `t`, it answered
`x`.  Together with C02, C09, C10, C16, C18, C19, C20, which say what a grant implies, these theorems
determine when a token request succeeds.
-/

namespace Goidc.Props

open Spec TokenEndpoint

variable {cfg : TokenCfg} {lib : Lib} {r : Req} {t : List Event} {o : Outcome Unit} {c : Client}

/-- A POST whose client is in order runs the registered handler (any handler) for that client, right
after the client was authenticated. -/
theorem C68_handler_executed {hf} (h : Runs (handler cfg lib r) t o) (hm : r.method = b!"POST")
    (hgt : r.formValue b!"grant_type" ≠ []) (hreg : Registered cfg r hf) (hc : ClientInOrder cfg lib r c t) :
    ∃ t1 now t2 t3 o', t = t1 ++ ⟨.now, now⟩ :: t2 ++ t3 ∧ Authenticated cfg lib r c t1 ∧
      Runs (hf r c now).run t2 o' ∧
      ((∃ res, o' = .ok (.ok res) ∧ ∃ l resp, t3 = [logged l, wrote resp] ∧ resp.status = 200 ∧ resp.body = res.json) ∨
       (∃ err resp, o' = .ok (.error err) ∧ t3 = [wrote resp] ∧ resp.status = err.statusCode) ∨
       (o' = .panic ∧ o = .panic ∧ t3 = [])) := by
  obtain ⟨t1, t2, rfl, ha, hx⟩ := runs_handler_inOrder h hm hgt hreg hc
  have hauth := (authTrace_authenticated ha).1
  unfold executeGrantHandler at hx
  rw [Prog.bind_eq, runs_bind_ask] at hx
  obtain ⟨now, t', rfl, hx⟩ := hx
  rw [Prog.bind_eq, runs_bind] at hx
  rcases hx with ⟨x, t3, t4, rfl, h1, h2⟩ | ⟨h1, ho⟩
  · refine ⟨t1, now, t3, t4, _, by simp, hauth, h1, ?_⟩
    cases x with
    | error err =>
      obtain ⟨rfl, _⟩ := runs_respond.1 h2
      exact .inr (.inl ⟨err, _, rfl, rfl, rfl⟩)
    | ok res =>
      obtain ⟨t5, rfl, h3⟩ := runs_tlog_bind.1 h2
      obtain ⟨rfl, _⟩ := runs_respond.1 h3
      exact .inl ⟨res, rfl, _, _, rfl, rfl, rfl⟩
  · exact ⟨t1, now, t', [], _, by simp, hauth, h1, .inr (.inr ⟨rfl, ho, rfl⟩)⟩

/-- The presented code challenge is right for the session's verifier. -/
def ChallengeInOrder (lib : Lib) (r : Req) (sess : AuthSession) : Prop :=
  sess.codeVerifier = [] ∨ (r.formValue b!"code_challenge" ≠ [] ∧
    ((r.formValue b!"code_challenge_method" = b!"plain" ∧
        r.formValue b!"code_challenge" = sess.codeVerifier) ∨
     (r.formValue b!"code_challenge_method" = b!"S256" ∧
        r.formValue b!"code_challenge" = base64url (lib.sha256 sess.codeVerifier))))

/-- The client's ID token algorithm, key and the signing primitive fit together. -/
def CanSign (lib : Lib) (c : Client) : Prop :=
  (∃ k, c.idTokenKey = some (.bytes k) ∧ c.idTokenAlg ∈ hmacAlgs ∧ lib.signOk c.idTokenAlg k = true) ∨
  (∃ k, c.idTokenKey = some (.rsaPriv k) ∧
    c.idTokenAlg ∈ rsaAlgs ∧
    lib.signOk c.idTokenAlg k = true) ∨
  (∃ k, c.idTokenKey = some (.ecPriv k) ∧ c.idTokenAlg ∈ ecAlgs ∧ lib.signOk c.idTokenAlg k = true)

theorem pkceOk_of {sess : AuthSession} (h : ChallengeInOrder lib r sess) : PkceOk lib r sess.codeVerifier := by
  rcases h with h | ⟨hne, ⟨h1, h2⟩ | ⟨h1, h2⟩⟩
  · exact .inl h
  · refine .inr ⟨by rw [h1]; decide, hne, .plain, by rw [h1]; rfl, ?_⟩
    simp [Pkce.Verifier.verify, h2]
  · refine .inr ⟨by rw [h1]; decide, hne, .s256, by rw [h1]; rfl, ?_⟩
    rw [h2]
    simp [Pkce.Verifier.verify, Pkce.s256Encode, C52_is_base64url]

theorem checkPkce_eq {sess : AuthSession} (h : PkceOk lib r sess.codeVerifier) :
    Grant.checkPkce lib r c sess = pure () := by
  unfold Grant.checkPkce
  dsimp only
  split
  · rfl
  · rename_i hcv
    rcases h with h | ⟨h1, h2, v, h3, h4⟩
    · exact absurd h hcv
    · rw [needParam_eq h1, xrun_pure_bind, needParam_eq h2, xrun_pure_bind, h3]
      dsimp only
      rw [if_pos h4]

theorem gen_of_canSign (h : CanSign lib c) {iss aud sub nonce} {e a n : Int64} :
    ∃ tok, IdToken.gen lib c.idTokenAlg c.idTokenKey c.idTokenKeyId iss aud sub nonce e a n = some tok := by
  unfold IdToken.gen IdToken.rawGen Jwt.signed
  unfold CanSign at h
  simp only [← family_hmac, ← family_rsa, ← family_ecdsa] at h
  rcases h with ⟨k, h1, h2, h3⟩ | ⟨k, h1, h2 | h2, h3⟩ | ⟨k, h1, h2, h3⟩ <;>
    exact ⟨lib.sign c.idTokenAlg c.idTokenKeyId _ k, by simp [h1, h2, h3]; rfl⟩

/-- The authorization_code grant: a found session of an authorization of this client, with the same
redirect URI and the right challenge, is exchanged. -/
theorem C68_code {sess info tk} (h : Runs (handler cfg lib r) t o) (hm : r.method = b!"POST")
    (hgt : r.formValue b!"grant_type" ≠ []) (hreg : Registered cfg r (Grant.authorizationCode lib))
    (hc : ClientInOrder cfg lib r c t)
    (hcode : r.formValue b!"code" ≠ []) (huri : r.formValue b!"redirect_uri" ≠ [])
    (hs : Answered t (.findAuthSessionByCode (r.formValue b!"code")) (some sess, none))
    (hi : Answered t (.findActiveAuthInfoById sess.authId) (some info, none))
    (hcl : info.clientId = c.id) (hru : sess.redirectURI = r.formValue b!"redirect_uri")
    (hpk : ChallengeInOrder lib r sess)
    (ht : Answered t (.createOAuthToken (some info) true) (some tk, none))
    (hd : Answered t (.disableSession sess) none)
    (hsig : (∀ ws, Words info.scope ws → b!"openid" ∉ ws) ∨ CanSign lib c) : Granted t o := by
  refine granted_of h hm hgt hreg hc fun now t' o' _ hsub hr => ?_
  unfold Grant.authorizationCode at hr
  dsimp only at hr
  rw [needParam_eq huri, xrun_pure_bind, needParam_eq hcode, xrun_pure_bind] at hr
  obtain ⟨t1, rfl, h1⟩ := runs_gask_answered hr (Answered.mono hs hsub)
  rw [show checkVal _ _ (some sess, (none : Option ErrType)) = (pure sess : GrantM _) from rfl, xrun_pure_bind] at h1
  have hsub1 : ∀ e ∈ t1, e ∈ t := fun e he => hsub e (List.mem_cons_of_mem _ he)
  obtain ⟨t2, rfl, h2⟩ := runs_gask_answered h1 (Answered.mono hi hsub1)
  rw [show checkVal _ _ (some info, (none : Option ErrType)) = (pure info : GrantM _) from rfl, xrun_pure_bind,
    if_neg (by simp [hcl]), if_neg (by simp [hru]), checkPkce_eq (pkceOk_of hpk), xrun_pure_bind] at h2
  have hsub2 : ∀ e ∈ t2, e ∈ t := fun e he => hsub1 e (List.mem_cons_of_mem _ he)
  obtain ⟨t3, rfl, h3⟩ := runs_gask_answered h2 (Answered.mono ht hsub2)
  rw [show checkVal _ _ (some tk, (none : Option ErrType)) = (pure tk : GrantM _) from rfl, xrun_pure_bind] at h3
  have hsub3 : ∀ e ∈ t3, e ∈ t := fun e he => hsub2 e (List.mem_cons_of_mem _ he)
  obtain ⟨t4, rfl, h4⟩ := runs_gask_answered h3 (Answered.mono hd hsub3)
  rw [show checkErr _ _ (none : Option ErrType) = (pure () : GrantM _) from rfl, xrun_pure_bind] at h4
  unfold Grant.attachIdToken at h4
  dsimp only at h4
  split at h4
  · rename_i ho
    obtain ⟨t5, rfl, h5⟩ := runs_glog_bind.1 h4
    obtain ⟨iss, t6, rfl, h6⟩ := runs_gask_bind.1 h5
    rcases hsig with hno | hsig
    · obtain ⟨ws, hw⟩ : ∃ ws, Words info.scope ws := ⟨_, fields_iff.2 rfl⟩
      exact absurd ((C46_include hw).1 ho) (hno ws hw)
    · obtain ⟨tok, hg⟩ := gen_of_canSign hsig (iss := iss) (aud := info.clientId) (sub := info.subject)
        (nonce := sess.nonce) (e := sess.idTokenExpiresIn) (a := sess.authTime) (n := now)
      rw [hg] at h6
      exact ⟨_, (runs_xpure h6).2⟩
  · exact ⟨_, (runs_xpure h4).2⟩

/-- Within its lifetime, without the overflow of the 64-bit sum. -/
def RefreshInTime (old : OAuthToken) (now : Int64) : Prop :=
  0 ≤ old.createdAt.toInt ∧ 0 ≤ old.refreshTokenExpiresIn.toInt ∧
  old.createdAt.toInt + old.refreshTokenExpiresIn.toInt < 2 ^ 63 ∧
  now.toInt ≤ old.createdAt.toInt + old.refreshTokenExpiresIn.toInt

/-- The refresh_token grant: a found refresh token within its lifetime, of an active authorization of
this client with `offline_access`, is refreshed. -/
theorem C68_refresh {old info tk} (h : Runs (handler cfg lib r) t o) (hm : r.method = b!"POST")
    (hgt : r.formValue b!"grant_type" ≠ []) (hreg : Registered cfg r Grant.refreshToken)
    (hc : ClientInOrder cfg lib r c t) (hrt : r.formValue b!"refresh_token" ≠ [])
    (hf : Answered t (.findOAuthTokenByRefreshToken (r.formValue b!"refresh_token")) (some old, none))
    (hlive : ∀ now, ⟨.now, now⟩ ∈ t → RefreshInTime old now)
    (hi : Answered t (.findActiveAuthInfoById old.authId) (some info, none))
    (hcl : info.clientId = c.id) (hoff : ∃ ws, Words info.scope ws ∧ b!"offline_access" ∈ ws)
    (ht : Answered t (.refreshAccessToken info old) (some tk, none)) : Granted t o := by
  refine granted_of h hm hgt hreg hc fun now t' o' hn hsub hr => ?_
  unfold Grant.refreshToken at hr
  dsimp only at hr
  rw [needParam_eq hrt, xrun_pure_bind] at hr
  obtain ⟨t1, rfl, h1⟩ := runs_gask_answered hr (Answered.mono hf hsub)
  obtain ⟨a1, a2, a3, a4⟩ := hlive now hn
  obtain ⟨ws, hw, hoff⟩ := hoff
  rw [show checkVal _ _ (some old, (none : Option ErrType)) = (pure old : GrantM _) from rfl, xrun_pure_bind,
    if_neg (not_expired_complete a2 a1 (by omega) (by omega))] at h1
  have hsub1 : ∀ e ∈ t1, e ∈ t := fun e he => hsub e (List.mem_cons_of_mem _ he)
  obtain ⟨t2, rfl, h2⟩ := runs_gask_answered h1 (Answered.mono hi hsub1)
  rw [show checkVal _ _ (some info, (none : Option ErrType)) = (pure info : GrantM _) from rfl, xrun_pure_bind,
    if_neg (by simp [hcl]), if_neg (by simp [show Scope.includeOfflineAccess info.scope = true from
      (C46_include hw).2 hoff])] at h2
  have hsub2 : ∀ e ∈ t2, e ∈ t := fun e he => hsub1 e (List.mem_cons_of_mem _ he)
  obtain ⟨t3, rfl, h3⟩ := runs_gask_answered h2 (Answered.mono ht hsub2)
  exact ⟨_, (runs_xpure h3).2⟩

theorem issue_good {gt uid scp info tk o'} (hr : Runs (Grant.issue gt c uid scp).run t o')
    (hi : Answered t (.createOrUpdateAuthInfo uid c.id scp) (some info, none))
    (ht : Answered t (.createOAuthToken (some info) true) (some tk, none)) : ∃ res, o' = .ok (.ok res) := by
  unfold Grant.issue at hr
  obtain ⟨t1, rfl, h1⟩ := runs_gask_answered hr hi
  rw [show checkVal _ _ (some info, (none : Option ErrType)) = (pure info : GrantM _) from rfl, xrun_pure_bind] at h1
  obtain ⟨t2, rfl, h2⟩ := runs_gask_answered h1 (Answered.mono ht (by simp +contextual))
  exact ⟨_, (runs_xpure h2).2⟩

/-- The scope parameter is absent or allowed to the client for direct grants. -/
def ScopeInOrder (r : Req) (c : Client) : Prop :=
  r.formValue b!"scope" = [] ∨ c.canUseScope .directGrant (r.formValue b!"scope") = true

/-- The password grant. -/
theorem C68_password {uid info tk} (h : Runs (handler cfg lib r) t o) (hm : r.method = b!"POST")
    (hgt : r.formValue b!"grant_type" ≠ []) (hreg : Registered cfg r Grant.password)
    (hc : ClientInOrder cfg lib r c t) (hun : r.formValue b!"username" ≠ [])
    (hpw : r.formValue b!"password" ≠ []) (hscp : ScopeInOrder r c)
    (hu : Answered t (.findUserId (r.formValue b!"username") (r.formValue b!"password")) (uid, none))
    (hi : Answered t (.createOrUpdateAuthInfo uid c.id (r.formValue b!"scope")) (some info, none))
    (ht : Answered t (.createOAuthToken (some info) true) (some tk, none)) : Granted t o := by
  refine granted_of h hm hgt hreg hc fun now t' o' hn hsub hr => ?_
  unfold Grant.password at hr
  dsimp only at hr
  rw [needParam_eq hun, xrun_pure_bind, needParam_eq hpw, xrun_pure_bind, checkScope_eq hscp,
    xrun_pure_bind] at hr
  obtain ⟨t1, rfl, h1⟩ := runs_gask_answered hr (Answered.mono hu hsub)
  rw [show checkErr _ _ (none : Option ErrType) = (pure () : GrantM _) from rfl, xrun_pure_bind] at h1
  have hsub1 : ∀ e ∈ t1, e ∈ t := fun e he => hsub e (List.mem_cons_of_mem _ he)
  exact issue_good h1 (Answered.mono hi hsub1) (Answered.mono ht hsub1)

/-- The client_credentials grant. -/
theorem C68_client_credentials {info tk} (h : Runs (handler cfg lib r) t o) (hm : r.method = b!"POST")
    (hgt : r.formValue b!"grant_type" ≠ []) (hreg : Registered cfg r Grant.clientCredentials)
    (hc : ClientInOrder cfg lib r c t) (hown : 0 ≤ c.ownerUserId.toInt) (hscp : ScopeInOrder r c)
    (hi : Answered t (.createOrUpdateAuthInfo c.ownerUserId c.id (r.formValue b!"scope")) (some info, none))
    (ht : Answered t (.createOAuthToken (some info) true) (some tk, none)) : Granted t o := by
  refine granted_of h hm hgt hreg hc fun now t' o' hn hsub hr => ?_
  unfold Grant.clientCredentials at hr
  dsimp only at hr
  rw [if_neg (by rw [Int64.lt_iff_toInt_lt]; simp; exact hown), checkScope_eq hscp, xrun_pure_bind] at hr
  exact issue_good hr (Answered.mono hi hsub) (Answered.mono ht hsub)

/-- The JWT-bearer grant. -/
theorem C68_jwt {tkn sub uid info tk} (h : Runs (handler cfg lib r) t o) (hm : r.method = b!"POST")
    (hgt : r.formValue b!"grant_type" ≠ []) (hreg : Registered cfg r (Grant.jwt lib))
    (hc : ClientInOrder cfg lib r c t) (hne : r.formValue b!"assertion" ≠ [])
    (hg : GoodAssertion lib c (r.formValue b!"assertion") tkn t) (hsubj : tkn.claimStr b!"sub" = some sub)
    (hscp : ScopeInOrder r c) (hu : Answered t (.findUserIdBySubject sub) (uid, none))
    (hi : Answered t (.createOrUpdateAuthInfo uid c.id (r.formValue b!"scope")) (some info, none))
    (ht : Answered t (.createOAuthToken (some info) true) (some tk, none)) : Granted t o := by
  refine granted_of h hm hgt hreg hc fun now t' o' hn hsub hr => ?_
  obtain ⟨⟨hd, k, hk, hv⟩, hin, ⟨exp, he⟩, ⟨iss, hiss, haud, hia⟩, hrec⟩ := hg
  have hkf : ∀ ta o', Runs (Grant.jwtKeyFunc c tkn) ta o' → ta = [] ∧ o' = .ok (.key k, ()) := by
    intro ta o' hr
    unfold Grant.jwtKeyFunc at hr
    rw [hk] at hr
    exact hr
  unfold Grant.jwt at hr
  dsimp only at hr
  rw [needParam_eq hne, xrun_pure_bind, xrun_bind, runs_bind] at hr
  rcases hr with ⟨x, t1, t2, rfl, h1, h2⟩ | ⟨h1, _⟩
  · rw [xrun_lift, runs_bind] at h1
    rcases h1 with ⟨p, t3, t4, rfl, h3, rfl, h4⟩ | ⟨h3, h4⟩
    · obtain ⟨ho, wall, rfl⟩ := runs_parse_good h3 hd (fun ta o' _ => hkf ta o') (verifies_iff.2 hv) fun w hw =>
        hin w (hsub _ (by simp [hw]))
      cases ho
      cases h4
      dsimp only at h2
      rw [xrun_bind, runs_bind] at h2
      have hh : ∀ {t5 : List Event} {o5}, (∀ e ∈ t5, e ∈ t) →
          Runs (Assertion.handle (r.formValue b!"assertion") Grant.typeJWT (some c) (some tkn) none).run t5 o5 →
          o5 = .ok (.ok ()) := fun hs h5 => (runs_handle_good h5 he hiss haud (Answered.mono hia hs)
            fun _ _ _ => Answered.mono (hrec _ _ _) hs).1
      rcases h2 with ⟨y, t5, t6, rfl, h5, h6⟩ | ⟨h5, _⟩
      · have ho := hh (fun e he => hsub e (by simp [he])) h5
        cases ho
        dsimp only at h6
        rw [hsubj] at h6
        dsimp only at h6
        have hsub6 : ∀ e ∈ t6, e ∈ t := fun e he => hsub e (by simp [he])
        obtain ⟨t7, rfl, h7⟩ := runs_gask_answered h6 (Answered.mono hu hsub6)
        rw [show checkErr _ _ (none : Option ErrType) = (pure () : GrantM _) from rfl, xrun_pure_bind,
          checkScope_eq hscp, xrun_pure_bind] at h7
        have hsub7 : ∀ e ∈ t7, e ∈ t := fun e he => hsub6 e (List.mem_cons_of_mem _ he)
        exact issue_good h7 (Answered.mono hi hsub7) (Answered.mono ht hsub7)
      · cases hh (fun e he => hsub e (by simp [he])) h5
    · cases h4
  · rw [xrun_lift, runs_bind] at h1
    rcases h1 with ⟨p, t3, t4, rfl, h3, rfl, h4⟩ | ⟨h3, h4⟩
    · cases h4
    · obtain ⟨ho, _⟩ := runs_parse_good h3 hd (fun ta o' _ => hkf ta o') (verifies_iff.2 hv) fun w hw => hin w (hsub _ hw)
      cases ho

/-! ## The hypotheses are met -/

theorem sample_answered (w : Sample.World) {α : Type} (p : Prog α) (q : Query) :
    Answered (w.run p).1 q (w.answer q) := fun _ hx => exec_answers w.answer p _ hx

/-- The sample client, authenticating with its secret, is in order. -/
theorem sample_inOrder {body : Params} {α : Type} (p : Prog α)
    (hg : Sample.client.canUseGrantType ((Sample.post body).formValue b!"grant_type") = true) :
    ClientInOrder Sample.tokenCfg Sample.lib (Sample.post body) Sample.client (({} : Sample.World).run p).1 :=
  .secret b!"client" b!"secret" true (.header _ _ (by
    show (Sample.post []).basicAuth = _
    decide +kernel)) (sample_answered _ p _) (by decide) hg

/-- An assertion that is in order in the sample world. -/
theorem sample_goodAssertion {α : Type} (p : Prog α) :
    GoodAssertion Sample.lib Sample.client b!"tok" Sample.jwt (({} : Sample.World).run p).1 := by
  refine ⟨⟨rfl, .bytes b!"key", rfl, verifies_iff.1 (by decide)⟩, fun wall hw => ?_, ⟨2000, .inl (by decide +kernel)⟩,
    ⟨b!"https://issuer", by decide, by decide +kernel, sample_answered _ p _⟩, fun _ _ _ => sample_answered _ p _⟩
  obtain rfl := sample_answered _ p _ _ hw
  exact ⟨⟨2000, .inl (by decide +kernel), by decide⟩, .inl (by decide +kernel), .inl (by decide +kernel)⟩

/-- So is the client authenticating with it. -/
theorem sample_inOrder_assertion {body : Params} {α : Type} (p : Prog α)
    (hb : PresentedAssertion (Sample.postAssertion b!"tok" body) b!"tok") :
    ClientInOrder Sample.tokenCfg Sample.lib (Sample.postAssertion b!"tok" body) Sample.client
      (({} : Sample.World).run p).1 :=
  .assertion b!"tok" Sample.jwt b!"client" (fun cid sec b h => by
    have : (Sample.postAssertion b!"tok" body).basicAuth = none := by
      show (Sample.postAssertion b!"tok" []).basicAuth = none
      decide +kernel
    cases h with
    | header h => rw [this] at h; cases h
    | body h => cases h
    | any h => cases h) rfl hb (by decide +kernel) (sample_answered _ p _) (sample_goodAssertion p)

/-- A run of the token endpoint in the sample world. -/
abbrev sampleRun (r : Req) := ({} : Sample.World).run (handler Sample.tokenCfg Sample.lib r)

example : Granted (sampleRun (Sample.post Sample.codeBody)).1 (sampleRun (Sample.post Sample.codeBody)).2.1 :=
  C68_code (sess := Sample.session) (info := Sample.info) (tk := Sample.token)
    (Sample.World.runs _ _) rfl (by decide +kernel) rfl (sample_inOrder _ (by decide +kernel)) (by decide +kernel)
    (by decide +kernel) (sample_answered _ _ _) (sample_answered _ _ _) rfl (by decide +kernel)
    (.inr ⟨by decide +kernel, .inl ⟨by decide +kernel, by decide +kernel⟩⟩) (sample_answered _ _ _)
    (sample_answered _ _ _) (.inr (.inl ⟨b!"key", rfl, by decide, rfl⟩))

example : Granted (sampleRun (Sample.post Sample.refreshBody)).1 (sampleRun (Sample.post Sample.refreshBody)).2.1 :=
  C68_refresh (old := Sample.token) (info := Sample.info) (tk := Sample.token)
    (Sample.World.runs _ _) rfl (by decide +kernel) rfl (sample_inOrder _ (by decide +kernel)) (by decide +kernel)
    (sample_answered _ _ _) (fun now hn => by
      obtain rfl := sample_answered _ _ _ _ hn
      exact ⟨by decide, by decide, by decide, by decide⟩) (sample_answered _ _ _) rfl
    ⟨[b!"openid", b!"offline_access"], by decide +kernel, by decide⟩ (sample_answered _ _ _)

example : Granted (sampleRun (Sample.post Sample.passwordBody)).1 (sampleRun (Sample.post Sample.passwordBody)).2.1 :=
  C68_password (uid := 5) (info := Sample.info) (tk := Sample.token)
    (Sample.World.runs _ _) rfl (by decide +kernel) rfl (sample_inOrder _ (by decide +kernel)) (by decide +kernel)
    (by decide +kernel) (.inr (by decide +kernel)) (sample_answered _ _ _) (sample_answered _ _ _)
    (sample_answered _ _ _)

example : Granted (sampleRun (Sample.postAssertion b!"tok" Sample.ccBody)).1
    (sampleRun (Sample.postAssertion b!"tok" Sample.ccBody)).2.1 :=
  C68_client_credentials (info := Sample.info) (tk := Sample.token)
    (Sample.World.runs _ _) rfl (by decide +kernel) rfl
    (sample_inOrder_assertion _ ⟨by decide +kernel, by decide, by decide +kernel⟩) (by decide)
    (.inr (by decide +kernel)) (sample_answered _ _ _) (sample_answered _ _ _)

example : Granted (sampleRun (Sample.post Sample.jwtBody)).1 (sampleRun (Sample.post Sample.jwtBody)).2.1 :=
  C68_jwt (tkn := Sample.jwt) (sub := b!"client") (uid := 5) (info := Sample.info) (tk := Sample.token)
    (Sample.World.runs _ _) rfl (by decide +kernel) rfl (sample_inOrder _ (by decide +kernel)) (by decide +kernel)
    (by
      have : (Sample.post Sample.jwtBody).formValue b!"assertion" = b!"tok" := by decide +kernel
      rw [this]
      exact sample_goodAssertion _) (by decide +kernel) (.inr (by decide +kernel))
    (sample_answered _ _ _) (sample_answered _ _ _) (sample_answered _ _ _)

/-! ## C04: the presented credentials are the ones used -/

/-- A POST for a registered grant type that presents credentials: the client with the presented id is
looked up, and that is the first data call. -/
theorem C04_looked_up {hf cid sec b} (h : Runs (handler cfg lib r) t o) (hm : r.method = b!"POST")
    (hgt : r.formValue b!"grant_type" ≠ []) (hreg : Registered cfg r hf)
    (hp : Presented cfg.acceptance r cid sec b) :
    ∃ x t', t = ⟨.findClientById cid, x⟩ :: t' := by
  unfold handler at h
  rw [if_neg (by simp [hm])] at h
  dsimp only at h
  rw [if_neg hgt, show lookupHandler cfg.handlers (r.formValue b!"grant_type") = some hf from hreg,
    findClientCredential_iff.2 hp] at h
  dsimp only at h
  unfold validateClientBySecret at h
  simp only [Prog.bind_eq, Prog.bind_assoc] at h
  obtain ⟨x, t', rfl, _⟩ := runs_bind_ask.1 h
  exact ⟨x, t', rfl⟩

example : ∃ x t', (sampleRun (Sample.post Sample.codeBody)).1 = ⟨.findClientById b!"client", x⟩ :: t' :=
  C04_looked_up (Sample.World.runs _ _) rfl (by decide +kernel) (hf := Grant.authorizationCode Sample.lib) rfl
    (.header _ b!"secret" (by decide +kernel))

/-! ## C17: the refresh half, for whole requests -/

/-- The last second of the lifetime is still accepted: with non-negative stored times, no overflow and
everything else in order, the request is granted exactly when the clock has not passed
created + lifetime. -/
theorem C17_refresh_exact {old info tk now} (h : Runs (handler cfg lib r) t o) (hm : r.method = b!"POST")
    (hgt : r.formValue b!"grant_type" ≠ []) (hreg : Registered cfg r Grant.refreshToken)
    (hc : ClientInOrder cfg lib r c t) (hrt : r.formValue b!"refresh_token" ≠ [])
    (hf : Answered t (.findOAuthTokenByRefreshToken (r.formValue b!"refresh_token")) (some old, none))
    (hi : Answered t (.findActiveAuthInfoById old.authId) (some info, none))
    (hcl : info.clientId = c.id) (hoff : ∃ ws, Words info.scope ws ∧ b!"offline_access" ∈ ws)
    (ht : Answered t (.refreshAccessToken info old) (some tk, none))
    (hnow : Answered t .now now)
    (h1 : 0 ≤ old.createdAt.toInt) (h2 : 0 ≤ old.refreshTokenExpiresIn.toInt)
    (hov : old.createdAt.toInt + old.refreshTokenExpiresIn.toInt < 2 ^ 63) :
    Granted t o ↔ now.toInt ≤ old.createdAt.toInt + old.refreshTokenExpiresIn.toInt := by
  constructor
  · rintro ⟨rfl, pre, resp, rfl, hst⟩
    obtain ⟨c', auth, now', old', info', tk', res, g1, g2, g3, g4, g5, g6, _⟩ :=
      C16_refresh hreg (runs_steps h) hst
    have hn : now' = now := hnow now' (List.mem_append_left _ ((g3 now').2 rfl))
    have hm : (⟨.findOAuthTokenByRefreshToken (r.formValue b!"refresh_token"), (some old', none)⟩ : Event) ∈ pre :=
      (mem_dataCalls rfl).1 (by rw [g4]; simp)
    have ho := hf _ (List.mem_append_left _ hm)
    cases ho
    subst hn
    exact C17_refresh_sound hreg (runs_steps h) hst hm ((g3 _).2 rfl) h1 h2
  · intro hn
    refine C68_refresh h hm hgt hreg hc hrt hf (fun n hn' => ?_) hi hcl hoff ht
    obtain rfl := hnow n hn'
    exact ⟨h1, h2, hov, hn⟩

/-- When the 64-bit sum created + lifetime overflows, the token is refused (by any clock after 1970). -/
theorem C17_refresh_overflow_refused (hreg : Registered cfg r Grant.refreshToken) {pre resp}
    (h : Steps (handler cfg lib r) (pre ++ [wrote resp]))
    {k old n} (ho : ⟨.findOAuthTokenByRefreshToken k, (some old, none)⟩ ∈ pre) (hn : ⟨.now, n⟩ ∈ pre)
    (h1 : 0 ≤ old.createdAt.toInt) (h2 : 0 ≤ old.refreshTokenExpiresIn.toInt)
    (hov : 2 ^ 63 ≤ old.createdAt.toInt + old.refreshTokenExpiresIn.toInt) (hpos : 0 ≤ n.toInt) :
    resp.status ≠ 200 := by
  intro h200
  obtain ⟨c', auth, now', old', info', tk', res, g1, g2, g3, g4, g5, g6, _⟩ := C16_refresh hreg h h200
  obtain rfl := (g3 n).1 hn
  have hm := (mem_dataCalls (e := ⟨.findOAuthTokenByRefreshToken k, (some old, none)⟩) rfl).2 ho
  rw [g4] at hm
  simp only [List.mem_append, List.mem_cons, List.not_mem_nil, or_false] at hm
  rcases hm with hm | hm | hm | hm
  · exact absurd hm (mem_auth_absurd g2 (by simp [IsAuthCall]))
  · cases hm
    exact not_refreshLive_of_overflow h1 h2 hov hpos g6
  · cases hm
  · cases hm

example : ({ foundToken := (some { Sample.token with createdAt := 2 ^ 62, refreshTokenExpiresIn := 2 ^ 62 }, none) }
    : Sample.World).status (handler Sample.tokenCfg Sample.lib (Sample.post Sample.refreshBody)) = some 400 := by
  decide +kernel

end Goidc.Props
