import Verif.Lemmas.OriginGlobal
import Verif.Props.Store
import Verif.Lemmas.OriginSample

/-! # C81, C82: where codes, tokens and identities come from -/

namespace Goidc.Props

open Spec TokenEndpoint AuthzEndpoint ResourceProtector

variable {ths : Nat → Thread} {g : List (Nat × Event)}

theorem mem_left {a b : List (Nat × Event)} {k : Nat} {e : Event} (hs : g = a ++ b) (h : e ∈ callsOf k a) : (k, e) ∈ g := by
  rw [hs]; exact List.mem_append_left _ (mem_callsOf.1 h)

theorem built_effScope {policy : Policy} {r : Req} {clnt : Client} {f : Flow} {req : Request}
    (h : Built policy r clnt f req) : req.scope = effScope r f := by
  unfold effScope
  have hp := h.prompt
  rcases h.scope with ⟨h1, h2⟩ | ⟨h1, h2, h3⟩
  · rw [if_neg, h1]
    rintro ⟨h3, h4⟩
    have := h2 h3
    rw [hp] at this
    rcases h4 with h4 | h4
    · exact this.1 h4
    · rw [this.2] at h4; cases h4
  · rw [hp] at h3
    rw [if_pos ⟨h2, h3⟩, h1]

theorem built_vetted {policy : Policy} {r : Req} {clnt : Client} {f : Flow} {req : Request} {pre : List Event}
    (hf : FoundClient r clnt pre) (hu : clnt.canUseRedirectURI (r.formValue b!"redirect_uri") = true)
    (h : Built policy r clnt f req) : Vetted r clnt req.scope pre where
  found := hf
  uri := hu
  allowed := ⟨f, asks_iff.2 h.judged, h.flowAllowed, h.scopeAllowed, by rw [built_effScope h]; exact effScope_spec⟩

theorem vetted_mono {r : Req} {clnt : Client} {sc : GoStr} {pre pre' : List Event} (h : Vetted r clnt sc pre)
    (hs : ∀ e ∈ pre, e ∈ pre') : Vetted r clnt sc pre' := ⟨foundClient_mono h.found hs, h.uri, h.allowed⟩

/-- A request that is completed was checked by `HandleRequest`. -/
theorem continued_vetted (hth : ∀ i, Endpoint (ths i)) (hg : Interleaves ths g) (hcs : ContinuesShown g)
    {k : Nat} {req : Request} (h : (k, ⟨.continue_, some (some req)⟩) ∈ g) :
    ∃ (k' : Nat) (policy : Policy) (lib : Lib) (r : Req) (clnt : Client),
      ths k' = ⟨handleRequest policy lib r⟩ ∧ Vetted r clnt req.scope (callsOf k' g) ∧
      req.clientId = r.formValue b!"client_id" ∧ req.redirectURI = r.formValue b!"redirect_uri" ∧
      req.codeVerifier = r.formValue b!"code_verifier" ∧ req.nonce = r.formValue b!"nonce" := by
  obtain ⟨a, b, rfl⟩ := List.append_of_mem h
  obtain ⟨k', clnt, hm⟩ := hcs rfl
  obtain ⟨a1, a2, rfl⟩ := List.append_of_mem hm
  obtain ⟨policy, lib, r, f, he, hf, hu, hb⟩ := shown_call (clnt := clnt) (req := req) (x := true) (hth k')
    (interleaves_split (a := a1) (b := a2 ++ (k, ⟨.continue_, some (some req)⟩) :: b) hg (by simp))
  refine ⟨k', policy, lib, r, clnt, he, vetted_mono (built_vetted hf hu hb) fun e he => ?_, hb.clientId, hb.redirectURI,
    hb.verifier, hb.nonce⟩
  rw [callsOf_append, callsOf_append]
  simp [he]

/-- A session is created for a request that was checked. -/
theorem session_vetted (hth : ∀ i, Endpoint (ths i)) (hg : Interleaves ths g) (hcs : ContinuesShown g) (hk : KeepsRecords g)
    {k : Nat} {pre : List Event} {i : AuthInfo} {x : Session} (hpre : ∀ e ∈ pre, (k, e) ∈ g)
    (h : KeyCall (ths k) pre (.createAuthSession (some i) x)) :
    ∃ (k' : Nat) (policy : Policy) (lib : Lib) (r : Req) (clnt : Client) (sc : GoStr),
      ths k' = ⟨handleRequest policy lib r⟩ ∧ Vetted r clnt sc (callsOf k' g) ∧
      r.formValue b!"client_id" = i.clientId ∧ r.formValue b!"redirect_uri" = x.redirectURI ∧
      r.formValue b!"code_verifier" = x.codeVerifier ∧ r.formValue b!"nonce" = x.nonce := by
  generalize hth' : ths k = th at h
  cases h with
  | token ha h => cases h
  | authorize hf hu hb _ hfi h =>
    cases h with
    | session code at_ hc =>
      obtain ⟨_, h2⟩ := hk.found (hpre _ hfi)
      exact ⟨k, _, _, _, _, _, hth', vetted_mono (built_vetted hf hu hb) fun e he => mem_callsOf.2 (hpre e he),
        by rw [h2, hb.clientId], hb.redirectURI.symm, hb.verifier.symm, hb.nonce.symm⟩
  | complete h1 h2 h =>
    cases h with
    | complete info q hm h =>
      cases h with
      | session code at_ hc =>
        obtain ⟨_, h4⟩ := hk.recorded (hpre _ hm)
        obtain ⟨k', policy, lib, r, clnt, h5, h6, h7, h8, h9, h10⟩ := continued_vetted hth hg hcs (hpre _ h1)
        exact ⟨k', policy, lib, r, clnt, _, h5, h6, by rw [h4, h7], h8.symm, h9.symm, h10.symm⟩

/-- C81: in every deployment (any token, authorization and protected requests, interleaved in any way, over
a store that keeps its records), a 200 answer to a code exchange goes to an authenticated client and is for
the authorization of that client by a user; and the presented code was created earlier, for that user and
that client and the presented redirect URI, by a request that completed an authorization request while that
user was logged in and whose consent was recorded then or before.  A code verifier given there fits the
challenge given here.  If the application continues only requests it has shown, an authorization request of
that client with that redirect URI, verifier and nonce had passed all checks. -/
theorem C81_code_origin (hth : ∀ i, Endpoint (ths i)) (hg : Interleaves ths g) (hk : KeepsRecords g)
    {cfg : TokenCfg} {lib : Lib} {r : Req} {i : Nat} {resp : HttpResp} (hi : ths i = ⟨handler cfg lib r⟩)
    (hreg : Registered cfg r (Grant.authorizationCode lib)) (hw : (i, wrote resp) ∈ g) (h200 : resp.status = 200) :
    ∃ (c : Client) (info : AuthInfo) (tk : OAuthToken) (verifier nonce : GoStr) (k : Nat) (j : AuthInfo) (x : Session)
        (a b : List (Nat × Event)),
      Authenticated cfg lib r c (callsOf i g) ∧ info.clientId = c.id ∧
      g = a ++ (k, ⟨.createAuthSession (some j) x, none⟩) :: b ∧
      (i, ⟨.createOAuthToken (some info) true, (some tk, none)⟩) ∈ b ∧
      CodeCreated (r.formValue b!"code") (ths k) (callsOf k a) info.userId c.id (r.formValue b!"redirect_uri")
        verifier nonce ∧
      (verifier ≠ [] → ChallengeFits lib r verifier) ∧
      (ContinuesShown g → ∃ (k' : Nat) (policy : Policy) (lib' : Lib) (r' : Req) (clnt : Client) (sc : GoStr),
        ths k' = ⟨handleRequest policy lib' r'⟩ ∧ Vetted r' clnt sc (callsOf k' g) ∧
        r'.formValue b!"client_id" = c.id ∧ r'.formValue b!"redirect_uri" = r.formValue b!"redirect_uri" ∧
        r'.formValue b!"code_verifier" = verifier ∧ r'.formValue b!"nonce" = nonce) := by
  obtain ⟨ga, gb, hgs⟩ := List.append_of_mem hw
  have hst := interleaves_split hg hgs
  rw [hi] at hst
  have hst' : Steps (handler cfg lib r) (callsOf i ga ++ [wrote resp]) := by
    refine steps_of_append (t' := callsOf i gb) ?_
    simpa using hst
  obtain ⟨c, auth, now, sess, info, tk, idc, res, h1, h2, _, h4, _, _, h7, h8, h9, _, _⟩ := code_200 hreg hst' h200
  have hsub : ∀ e ∈ callsOf i ga, (i, e) ∈ g := fun e he => mem_left hgs he
  have hall : ∀ e ∈ dataCalls (callsOf i ga), (i, e) ∈ g := fun e he => hsub e (List.mem_filter.1 he).1
  obtain ⟨l1, l2, hl, _, hl2⟩ := List.filter_eq_append_iff.1 (show (callsOf i ga).filter (fun e => e.q.isData) = auth ++ _ by
    rw [← List.append_assoc]; exact h4)
  obtain ⟨m1, m2, hm, _, _, hm2⟩ := List.filter_eq_cons_iff.1 hl2
  rw [hm, ← List.append_assoc] at hl
  have hfm : (⟨.findAuthSessionByCode (r.formValue b!"code"), (some sess, none)⟩ : Event) ∈ callsOf i ga := by
    rw [hl]; simp
  have hru := h7
  obtain ⟨g1, g2, rfl, _, hg2⟩ := callsOf_split hl
  have hgs' : g = g1 ++ (i, ⟨.findAuthSessionByCode (r.formValue b!"code"), (some sess, none)⟩) ::
      (g2 ++ (i, wrote resp) :: gb) := by rw [hgs]; simp
  obtain ⟨k, j, x, hcs, hx, hsa, hsr, hsv, hsn, _⟩ := hk.sessions hgs'
  obtain ⟨a, b, rfl⟩ := List.append_of_mem hcs
  have hgk : g = a ++ (k, ⟨.createAuthSession (some j) x, none⟩) ::
      (b ++ (i, ⟨.findAuthSessionByCode (r.formValue b!"code"), (some sess, none)⟩) :: (g2 ++ (i, wrote resp) :: gb)) := by
    rw [hgs']; simp
  obtain ⟨hcc, e, he, hsh⟩ := session_origin hk (k := k) (fun e he => mem_left hgk he) (global_key hth hg hgk rfl)
  have hact : (i, (⟨.findActiveAuthInfoById sess.authId, (some info, none)⟩ : Event)) ∈ g := by
    refine hall _ ?_; rw [h4]; simp
  obtain ⟨ha, hb, hab⟩ := List.append_of_mem hact
  obtain ⟨hid, _⟩ := hk.active hab
  obtain ⟨hus, hcl⟩ := hk.stable hact he (.active _) hsh (hid.trans hsa)
  rw [hx, ← hus, ← hcl, h8, ← hsr, h7] at hcc
  refine ⟨c, info, tk, x.codeVerifier, x.nonce, k, j, x, a, _, authenticated_mono h1 fun e he => ?_, h8, hgk, ?_, hcc, ?_, ?_⟩
  · rw [mem_callsOf]; refine hall e ?_; rw [h4]; simp [he]
  · have : (⟨.createOAuthToken (some info) true, (some tk, none)⟩ : Event) ∈ callsOf i g2 := by
      rw [hg2]
      refine (List.mem_filter (p := fun e => e.q.isData).1 ?_).1
      rw [hm2]; simp
    simp [mem_callsOf.1 this]
  · intro hv
    rw [← hsv] at hv ⊢
    exact (C10_pkce hreg hst' h200 hfm hv).2
  · intro hcont
    obtain ⟨k', p', l', r', c', sc', h5, h6, h7, h10, h11, h12⟩ := session_vetted hth hg hcont hk
      (fun e he => mem_left hgk he) (global_key hth hg hgk rfl)
    exact ⟨k', p', l', r', c', sc', h5, h6, by rw [h7, ← hcl, h8], by rw [h10, ← hsr, hru], h11, h12⟩

/-! ## C82 -/

/-- C82: in every deployment over a store that keeps its records, a protected request that is admitted
carries the user, client and scope of one authorization; exactly that user, client and scope were recorded
earlier by a request entitled to (completed consent, the user's password, the client's own account, or an
assertion signed by the client); and the presented bearer token was issued earlier, by the store, to a
request that speaks for that user and client. -/
theorem C82_identity_origin (hth : ∀ i, Endpoint (ths i)) (hg : Interleaves ths g) (hk : KeepsRecords g)
    {cfg : ProtectorCfg} {lib : Lib} {r r' : Req} {j : Nat} {t : List Event} (hj : callsOf j g = t)
    (h : Runs (validate cfg lib r) t (.ok (true, r'))) :
    ∃ (uid : Int64) (cid sc tok : GoStr), BearerToken cfg.acceptance r tok ∧
      headerValues r' b!"X-OAUTH-USER-ID" = [itoa uid] ∧ headerValues r' b!"X-OAUTH-CLIENT-ID" = [cid] ∧
      headerValues r' b!"X-OAUTH-SCOPE" = [sc] ∧
      (∃ k i a b, g = a ++ (k, ⟨.createOrUpdateAuthInfo uid cid sc, (some i, none)⟩) :: b ∧
        Entitled (ths k) (callsOf k a) uid cid sc) ∧
      (∃ k e tk a b, g = a ++ (k, e) :: b ∧ Issues tk e ∧ tk.accessToken = tok ∧
        SpeaksFor (ths k) (callsOf k a) uid cid) := by
  obtain ⟨tok, atk, now, info, hbt, ht, _⟩ := C25_live h
  obtain ⟨tok', atk', now', info', ht', hu, hc, hsc⟩ := C26_identity h
  rw [ht] at ht'
  cases ht'
  rw [ht] at hj
  refine ⟨info.userId, info.clientId, info.scope, tok, hbt, hu, hc, hsc, ?_⟩
  -- the two lookups in the global sequence
  obtain ⟨g1, g2, hg12, _, hc2⟩ := callsOf_split (u := []) hj
  have hact : (j, (⟨.findActiveAuthInfoById atk.authId, (some info, none)⟩ : Event)) ∈ g := by
    rw [← mem_callsOf, hj]; simp
  obtain ⟨g3, g4, hg34⟩ := List.append_of_mem hact
  obtain ⟨hid, k, i', hrec, _⟩ := hk.active hg34
  obtain ⟨k', tk', htok, hauth, hiss⟩ := hk.tokens hg12
  constructor
  · obtain ⟨a, b, rfl⟩ := List.append_of_mem hrec
    have hs : g = a ++ (k, ⟨.createOrUpdateAuthInfo info.userId info.clientId info.scope, (some i', none)⟩) ::
        (b ++ (j, ⟨.findActiveAuthInfoById atk.authId, (some info, none)⟩) :: g4) := by rw [hg34]; simp
    exact ⟨k, i', a, _, hs, recorded_entitled (global_key hth hg hs rfl)⟩
  · rcases hiss with ⟨i, b, hm⟩ | ⟨i, old, hm⟩
    · obtain ⟨a1, a2, rfl⟩ := List.append_of_mem hm
      have hs : g = a1 ++ (k', ⟨.createOAuthToken (some i) b, (some tk', none)⟩) ::
          (a2 ++ (j, ⟨.findOAuthTokenByAccessToken tok, (some atk, none)⟩) :: g2) := by rw [hg12]; simp
      obtain ⟨hsp, e, he, hsh⟩ := created_speaks hk (k := k') (fun e he => mem_left hs he) (global_key hth hg hs rfl)
      have hidi : info.id = i.id := by
        rw [hid, ← hauth]
        exact hk.created (k := k') (b := b) (tk := tk') (by rw [hs]; simp)
      obtain ⟨h1, h2⟩ := hk.stable hact he (.active _) hsh hidi
      rw [← h1, ← h2] at hsp
      exact ⟨k', _, tk', a1, _, hs, .created _ _, htok, hsp⟩
    · obtain ⟨a1, a2, rfl⟩ := List.append_of_mem hm
      have hs : g = a1 ++ (k', ⟨.refreshAccessToken i old, (some tk', none)⟩) ::
          (a2 ++ (j, ⟨.findOAuthTokenByAccessToken tok, (some atk, none)⟩) :: g2) := by rw [hg12]; simp
      obtain ⟨hsp, hfi, rt, hfo⟩ := refreshed_speaks (global_key hth hg hs rfl)
      have hold : tk'.authId = old.authId := hk.refreshed hs (mem_callsOf.1 hfo)
      have hfg := mem_left hs hfi
      obtain ⟨p, q, hpq⟩ := List.append_of_mem hfg
      have hidi : info.id = i.id := by rw [hid, ← hauth, hold, (hk.active hpq).1]
      obtain ⟨h1, h2⟩ := hk.stable hact hfg (.active _) (.active _) hidi
      rw [← h1, ← h2] at hsp
      exact ⟨k', _, tk', a1, _, hs, .refreshed _ _, htok, hsp⟩

/-- C82, for `ValidateWithScopes`: what it admits, `Validate` admits after the same calls. -/
theorem C82_with_scopes {cfg : ProtectorCfg} {lib : Lib} {r r' : Req} {m : List (GoStr × List GoStr)} {t : List Event}
    (h : Runs (validateWithScopes cfg lib r m) t (.ok (true, r'))) : Runs (validate cfg lib r) t (.ok (true, r')) := by
  rcases validateWithScopes_runs.1 h with ⟨_, _, h⟩ | ⟨_, h⟩ | ⟨t1, t2, r'', rfl, h1, ⟨_, rfl, h2⟩ | ⟨_, _, h2⟩⟩
  · cases h
  · cases h
  · cases h2; rw [List.append_nil]; exact h1
  · cases h2

/-- C82: every scope that is recorded was allowed to the client it is recorded for: to the authenticated
client by the direct grants, or (if the application continues only requests it has shown) in an
authorization request of that client, after all checks. -/
theorem C82_scope_allowed (hth : ∀ i, Endpoint (ths i)) (hg : Interleaves ths g) (hcs : ContinuesShown g)
    {k : Nat} {uid : Int64} {cid sc : GoStr} {rr} (h : (k, ⟨.createOrUpdateAuthInfo uid cid sc, rr⟩) ∈ g) :
    (∃ (cfg : TokenCfg) (lib : Lib) (r : Req) (c : Client), ths k = ⟨handler cfg lib r⟩ ∧
      Authenticated cfg lib r c (callsOf k g) ∧ c.id = cid ∧ (sc = [] ∨ c.canUseScope .directGrant sc = true)) ∨
    (∃ (k' : Nat) (policy : Policy) (lib : Lib) (r : Req) (clnt : Client), ths k' = ⟨handleRequest policy lib r⟩ ∧
      r.formValue b!"client_id" = cid ∧ Vetted r clnt sc (callsOf k' g)) := by
  obtain ⟨a, b, hs⟩ := List.append_of_mem h
  have hsub : ∀ e ∈ callsOf k a, e ∈ callsOf k g := fun e he => mem_callsOf.2 (mem_left hs he)
  have he := recorded_entitled (global_key hth hg hs rfl)
  generalize hth' : ths k = th at he
  cases he with
  | consent h1 h2 =>
    obtain ⟨k', policy, lib, r, clnt, h5, h6, h7, _⟩ := continued_vetted hth hg hcs (mem_left hs h1)
    exact .inr ⟨k', policy, lib, r, clnt, h5, h7.symm, h6⟩
  | password h1 h2 h3 h4 => exact .inl ⟨_, _, _, _, rfl, authenticated_mono h2 hsub, rfl, h4⟩
  | owner h1 h2 h3 h4 => exact .inl ⟨_, _, _, _, rfl, authenticated_mono h2 hsub, rfl, h4⟩
  | assertion h1 h2 h3 h4 h5 h6 => exact .inl ⟨_, _, _, _, rfl, authenticated_mono h2 hsub, rfl, h6⟩

/-! ## The reference store, and a deployment that meets every hypothesis -/

/-- C81/C82: the reference store, from the start and in every run, keeps its records. -/
theorem C81_reference_store {users : List TestUser} {clients : List Client} {s : StoreState}
    (hr : StoreRun (StoreState.init users clients) (g.map (·.2)) s) (hp : s.infoIdPod < 2 ^ 63) : KeepsRecords g :=
  store_keeps hr hp

/-- C82 over the reference store: no assumption on the store is left. -/
theorem C82_reference_store (hth : ∀ i, Endpoint (ths i)) (hg : Interleaves ths g)
    {users : List TestUser} {clients : List Client} {s : StoreState}
    (hr : StoreRun (StoreState.init users clients) (g.map (·.2)) s) (hp : s.infoIdPod < 2 ^ 63)
    {cfg : ProtectorCfg} {lib : Lib} {r r' : Req} {j : Nat} {t : List Event} (hj : callsOf j g = t)
    (h : Runs (validate cfg lib r) t (.ok (true, r'))) :
    ∃ (uid : Int64) (cid sc tok : GoStr), BearerToken cfg.acceptance r tok ∧
      headerValues r' b!"X-OAUTH-USER-ID" = [itoa uid] ∧ headerValues r' b!"X-OAUTH-CLIENT-ID" = [cid] ∧
      headerValues r' b!"X-OAUTH-SCOPE" = [sc] ∧
      (∃ k i a b, g = a ++ (k, ⟨.createOrUpdateAuthInfo uid cid sc, (some i, none)⟩) :: b ∧
        Entitled (ths k) (callsOf k a) uid cid sc) ∧
      (∃ k e tk a b, g = a ++ (k, e) :: b ∧ Issues tk e ∧ tk.accessToken = tok ∧
        SpeaksFor (ths k) (callsOf k a) uid cid) :=
  C82_identity_origin hth hg (store_keeps hr hp) hj h

/-- The hypotheses of `C81_code_origin` (and of its last part) are met: consent is shown and given, and the
client redeems the code. -/
example : (∀ i, Endpoint (Sample.webEndpoints i)) ∧ Interleaves Sample.webEndpoints Sample.webCalls ∧
    KeepsRecords Sample.webCalls ∧ ContinuesShown Sample.webCalls ∧
    Sample.webEndpoints 2 = ⟨handler Sample.tokenCfg Sample.lib (Sample.post Sample.codeBody)⟩ ∧
    Registered Sample.tokenCfg (Sample.post Sample.codeBody) (Grant.authorizationCode Sample.lib) ∧
    ∃ resp, (2, wrote resp) ∈ Sample.webCalls ∧ resp.status = 200 :=
  ⟨Sample.web_endpoints sample_allBuiltIn, Sample.web_interleaves, Sample.web_keeps, Sample.web_continues, rfl, rfl,
    answered_mem (by decide +kernel)⟩

/-- The hypotheses of `C82_identity_origin` and `C82_reference_store` are met: the token issued for that code
is then used. -/
example : (∀ i, Endpoint (Sample.webEndpoints i)) ∧ Interleaves Sample.webEndpoints Sample.webCalls ∧
    KeepsRecords Sample.webCalls ∧
    (∃ s, StoreRun Sample.webStart (Sample.webCalls.map (·.2)) s ∧ s.infoIdPod < 2 ^ 63) ∧
    ∃ r', Runs (validate Sample.protectorCfg Sample.lib Sample.bearerReq) (callsOf 3 Sample.webCalls) (.ok (true, r')) :=
  ⟨Sample.web_endpoints sample_allBuiltIn, Sample.web_interleaves, Sample.web_keeps,
    ⟨_, Sample.web_store Sample.web_chain, by decide +kernel⟩, Sample.web_admitted⟩

/-- Whether a call records an authorization. -/
def recordsAuth : Nat × Event → Bool
  | (_, ⟨.createOrUpdateAuthInfo _ _ _, _⟩) => true
  | _ => false

/-- The hypotheses of `C82_scope_allowed` are met. -/
example : ContinuesShown Sample.webCalls ∧ ∃ x ∈ Sample.webCalls, recordsAuth x = true :=
  ⟨Sample.web_continues, by
    have h : Sample.webCalls.any recordsAuth = true := by decide +kernel
    simpa using List.any_eq_true.1 h⟩

end Goidc.Props
