import Verif.Lemmas.TableStore
import Verif.Spec.EndToEnd
import Verif.Props.AuthComplete
import Verif.Lemmas.EndToEndSample

/-! # C88: codes can be redeemed -/

namespace Goidc.Props

open Spec TokenEndpoint AuthzEndpoint StoreState

variable {ths : Nat → Thread} {g0 g1 g2 : List (Nat × Event)}

/-- What the reference store answers while a code is redeemed. -/
structure CodeFacts (t : List Event) (c : Client) (code : GoStr) (sess : AuthSession) (clientId scope subject : GoStr)
    (past : List Event) (e : Event) : Prop where
  mem : e ∈ t
  client : ∀ x, e = ⟨.findClientById c.id, x⟩ → x = (some c, none)
  session : ∀ x, e = ⟨.findAuthSessionByCode code, x⟩ → (∀ y rr, ⟨.disableSession y, rr⟩ ∉ past) → x = (some sess, none)
  info : ∀ x, e = ⟨.findActiveAuthInfoById sess.authId, x⟩ → ∃ info : AuthInfo, x = (some info, none) ∧
    info.clientId = clientId ∧ info.scope = scope ∧ info.subject = subject
  token : ∀ info b x, e = ⟨.createOAuthToken (some info) b, x⟩ → ∃ n1 n2, x = (some (StoreState.newToken info n1 n2), none)
  disable : ∀ y x, e = ⟨.disableSession y, x⟩ → x = none
  issuer : ∀ x, e = ⟨.issuer, x⟩ → x = b!"http://example.org/"

/-- The ID token of a redeemed code. -/
def CodeIdToken (lib : Lib) (t : List Event) (c : Client) (scope subject nonce : GoStr) (lifetime authTime : Int64)
    (idt : GoStr) : Prop :=
  (¬ HasWord scope b!"openid" → idt = []) ∧
  (HasWord scope b!"openid" → ∃ now claims, ⟨.now, now⟩ ∈ t ∧ SignedBy lib c.idTokenAlg c.idTokenKeyId claims c.idTokenKey idt ∧
    ∀ k v, (k, v) ∈ claims ↔ CodeIdTokenClaims b!"http://example.org/" c.id subject nonce (now + lifetime) now authTime k v)

theorem redeem {cfg : TokenCfg} {lib : Lib} {r : Req} {c : Client} {t : List Event} {o : Outcome Unit} {sess : AuthSession}
    {scope subject : GoStr} (hq : RequestOf cfg lib r .code c) (hu : r.formValue b!"redirect_uri" = sess.redirectURI)
    (hun : sess.redirectURI ≠ []) (hcn : r.formValue b!"code" ≠ [])
    (hv : sess.codeVerifier = [] ∨ (r.formValue b!"code_challenge" ≠ [] ∧ ChallengeFits lib r sess.codeVerifier))
    (hk : HasWord scope b!"openid" → KeyFits lib c.idTokenAlg c.idTokenKey)
    (h : Runs (handler cfg lib r) t o)
    (hF : ∀ a e b, interactions t = a ++ e :: b → CodeFacts t c (r.formValue b!"code") sess c.id scope subject a e) :
    ∃ calls token idt, RepliesWith cfg t o calls (.granted token scope idt) ∧
      (token.refreshToken ≠ [] ↔ HasWord scope b!"offline_access") ∧
      CodeIdToken lib t c scope subject sess.nonce sess.idTokenExpiresIn sess.authTime idt := by
  obtain ⟨sec, b, hp, hsec⟩ := hq.secret
  have := tf_run (F := CodeFacts t c (r.formValue b!"code") sess c.id scope subject) (kind := .code)
    (Q := fun _ res => ∃ token idt, res = .inr (.granted token scope idt) ∧
      (token.refreshToken ≠ [] ↔ HasWord scope b!"offline_access") ∧
      CodeIdToken lib t c scope subject sess.nonce sess.idTokenExpiresIn sess.authTime idt) hq.registered h hF ?_
  · obtain ⟨calls, e, h1, token, idt, he, h2⟩ := this
    cases he
    exact ⟨calls, token, idt, h1, h2⟩
  unfold tokenTable
  refine tf_goOn (not_not_intro hq.post) (tf_need hq.grantType (tf_goOn (fun h => h _ hq.registered) ?_))
  refine tf_client hp (fun x hx => hx.client x rfl) hsec hq.allowed ?_
  refine tf_observe fun now hnow => ?_
  refine tf_bind ?_
  unfold grantTable codeGrant
  refine tf_need (by rw [hu]; exact hun) (tf_need hcn ?_)
  refine tf_obtain fun x hx => ?_
  refine ⟨sess, by rw [hx.session x rfl (by simp)]; rfl, ?_⟩
  refine tf_obtain fun x hx => ?_
  obtain ⟨info, rfl, h1, h2, h3⟩ := hx.info x rfl
  refine ⟨info, rfl, ?_⟩
  refine tf_goOn (by simp [h1]) (tf_goOn (by simp [hu]) ?_)
  have hv1 : sess.codeVerifier ≠ [] → r.formValue b!"code_challenge" ≠ [] ∧ ChallengeFits lib r sess.codeVerifier := by
    intro hne; exact hv.resolve_left hne
  have hm : sess.codeVerifier ≠ [] → r.formValue b!"code_challenge_method" ∈ [b!"plain", b!"S256"] := by
    intro hne
    rcases (hv1 hne).2 with ⟨h4, _⟩ | ⟨h4, _⟩ <;> rw [h4] <;> decide
  refine tf_goOn (fun ⟨hne, he⟩ => ?_) (tf_goOn (fun ⟨hne, he⟩ => (hv1 hne).1 he)
    (tf_goOn (fun ⟨hne, he⟩ => he (hm hne)) (tf_goOn (fun ⟨hne, he⟩ => he (hv1 hne).2) ?_)))
  · have := hm hne
    rw [he] at this
    revert this
    decide
  refine tf_obtain fun x hx => ?_
  obtain ⟨n1, n2, rfl⟩ := hx.token info true x rfl
  refine ⟨_, rfl, ?_⟩
  refine tf_obtain fun x hx => ⟨(), by rw [hx.disable _ x rfl], ?_⟩
  have hr : (StoreState.newToken info n1 n2).refreshToken ≠ [] ↔ HasWord scope b!"offline_access" := by
    rw [← h2, ← scope_hasWord]
    show (if Scope.includes info.scope b!"offline_access" = true then b!"REFRESH_TOKEN_" ++ itoa info.id else []) ≠ [] ↔ _
    split
    · rename_i ho; exact ⟨fun _ => ho, fun _ => by simp⟩
    · rename_i ho; exact ⟨fun hn => absurd rfl hn, fun hy => absurd hy ho⟩
  refine tf_bind ?_
  intro calls res hcalls hF'
  rcases hcalls with ⟨hno, rfl, rfl⟩ | ⟨hyes, iss, rfl, hrest⟩
  · refine tf_pure (tf_reply ⟨_, [], by rw [h2], hr, fun _ => rfl, fun hy => absurd (h2 ▸ hy) hno⟩)
  · have hiss := (hF' [] _ [] rfl).issuer iss rfl
    rcases hrest with ⟨hk', rfl⟩ | ⟨_, tok, claims, rfl, hsig, hcl⟩
    · exact absurd (hk (h2 ▸ hyes)) hk'
    · refine tf_pure (tf_reply ⟨_, tok, by rw [h2], hr, fun hn => absurd (h2 ▸ hyes) hn, fun _ => ⟨now, claims, hnow.mem, hsig, ?_⟩⟩)
      intro k v
      rw [hcl, hiss, h1, h3]

/-- The events of one request of a history, in the state of the store before them. -/
theorem event_at {g : List (Nat × Event)} {s s' : StoreState} (hs : StoreRun s (g.map (·.2)) s') {j : Nat}
    {a b : List Event} {e : Event} (h : callsOf j g = a ++ e :: b) :
    ∃ p q m m', g = p ++ (j, e) :: q ∧ callsOf j p = a ∧ StoreRun s (p.map (·.2)) m ∧ m.Answers e m' ∧
      StoreRun m' (q.map (·.2)) s' := by
  obtain ⟨p, q, rfl, h1, _⟩ := callsOf_split h
  rw [List.map_append, List.map_cons] at hs
  obtain ⟨m, m', h2, h3, h4⟩ := run_at hs
  exact ⟨p, q, m, m', rfl, h1, h2, h3, h4⟩

theorem client_here {users clients} {t : List Event} {m : StoreState} {c : Client} (hc : TheClient clients c)
    (h : StoreRun (StoreState.init users clients) t m) : m.client c.id = some c := by
  unfold StoreState.client
  rw [clients_run h]
  show clients.find? _ = _
  obtain ⟨h1, h2⟩ := hc
  cases hf : clients.find? (fun x => decide (x.id = c.id)) with
  | none => exact absurd (List.find?_eq_none.1 hf c h1) (by simp)
  | some c' => rw [h2 c' (List.mem_of_find?_eq_some hf) (by simpa using List.find?_some hf)]

/-- C88: on the reference store, with any requests running concurrently: the code that `CompleteRequest`
delivers (for the continued request `req`, the user `uid` and the login time `authTime`) can be redeemed by the client of `req`.  A request that starts after
the delivery, comes from that client with its secret, and presents the code, the redirect URI of `req` and (if `req` had
a verifier) a fitting challenge, is granted a token with the scope of `req`: with a refresh token exactly if the scope has
`offline_access`, and with an ID token (signed with the key of the client, for this user, with the nonce of `req` and the login
time) exactly if it has `openid`.  That is, unless another request spends the code, the code was not fresh, or the user
authorizes the client for another scope in the meantime. -/
theorem C88_code_redeemable {users clients} {s' : StoreState} {policy : Policy} {lib : Lib} {r : Req} {resp : HttpResp} {i : Nat}
    (hg : Interleaves ths (g0 ++ g1 ++ g2))
    (hs : StoreRun (StoreState.init users clients) ((g0 ++ g1 ++ g2).map (·.2)) s') (hsmall : s'.infoIdPod < 2 ^ 63)
    (hfresh : CodesFresh (g0 ++ g1 ++ g2)) (hi : ths i = ⟨completeRequest policy lib r⟩) (hi0 : ∀ e, (i, e) ∉ g0)
    (hw : (i, wrote resp) ∈ g1) :
    ∃ req ps ch, (i, ⟨.continue_, some (some req)⟩) ∈ g1 ∧ Delivers resp req.redirectURI ps ch ∧ ∀ code ∈ valuesOf ps b!"code",
      ∃ uid authTime, (i, ⟨.getLoginUserId, some uid⟩) ∈ g1 ∧ (i, ⟨.getAuthTime, some authTime⟩) ∈ g1 ∧
      ∀ (j : Nat) (cfg : TokenCfg) (lib' : Lib) (r' : Req) (c : Client) (o : Outcome Unit),
        (∀ e, (j, e) ∉ g0 ++ g1) → Runs (handler cfg lib' r') (callsOf j g2) o →
        TheClient clients c → c.id = req.clientId → RequestOf cfg lib' r' .code c →
        r'.formValue b!"code" = code → code ≠ [] →
        r'.formValue b!"redirect_uri" = req.redirectURI → req.redirectURI ≠ [] →
        (req.codeVerifier = [] ∨ (r'.formValue b!"code_challenge" ≠ [] ∧ ChallengeFits lib' r' req.codeVerifier)) →
        (HasWord req.scope b!"openid" → KeyFits lib' c.idTokenAlg c.idTokenKey) →
        OnlySpentBy (g1 ++ g2) code j → OnlyAuthorized (g1 ++ g2) uid req.clientId req.scope →
        ∃ calls token idt, RepliesWith cfg (callsOf j g2) o calls (.granted token req.scope idt) ∧
          (token.refreshToken ≠ [] ↔ HasWord req.scope b!"offline_access") ∧
          CodeIdToken lib' (callsOf j g2) c req.scope (itoa uid) req.nonce 604800 authTime idt := by
  have hgi := hg i
  rw [hi, callsOf_append, callsOf_append] at hgi
  have hi0' : callsOf i g0 = [] := by
    cases hc : callsOf i g0 with
    | nil => rfl
    | cons e t => exact absurd (mem_callsOf.1 (hc ▸ List.mem_cons_self)) (hi0 e)
  rw [hi0', List.nil_append] at hgi
  obtain ⟨pre, post, hpre⟩ := List.append_of_mem (mem_callsOf.2 hw)
  rw [hpre] at hgi
  have hsteps : Steps (completeRequest policy lib r) (pre ++ [wrote resp]) := by
    refine steps_of_append (t' := post ++ callsOf i g2) ?_
    simpa using hgi
  have hin : ∀ e ∈ pre, (i, e) ∈ g1 := fun e he => mem_callsOf.1 (by rw [hpre]; simp [he])
  obtain ⟨req, ps, ch, hcont, hdel, hcodes⟩ := C40_complete hsteps
  refine ⟨req, ps, ch, hin _ hcont, hdel, fun code hcode => ?_⟩
  obtain ⟨uid, info?, authTime, hu, ha, _, hat, hsess⟩ := hcodes code hcode
  refine ⟨uid, authTime, hin _ hu, hin _ hat, ?_⟩
  intro j cfg lib' r' c o hj0 hrun hc hcid hq hcode' hne hru hrun' hver hkey hspent hauth
  have hjc : callsOf j (g0 ++ g1 ++ g2) = callsOf j g2 := by
    rw [callsOf_append]
    cases hx : callsOf j (g0 ++ g1) with
    | nil => rfl
    | cons e t => exact absurd (mem_callsOf.1 (hx ▸ List.mem_cons_self)) (hj0 e)
  -- the authorization
  obtain ⟨a1, a2, ea⟩ := List.append_of_mem (hin _ ha)
  obtain ⟨b1, b2, eb⟩ := List.append_of_mem (hin _ hsess)
  rw [List.map_append] at hs
  obtain ⟨s1, hs1, hs2⟩ := chain_append.1 hs
  have hok1 := ok_run (ok_init users clients) hs1
  have hpod1 : s1.infoIdPod < 2 ^ 63 := Nat.lt_of_le_of_lt (pod_run hs2) hsmall
  obtain ⟨info, rfl, hau⟩ : ∃ info, info? = some info ∧ s1.Authorizes info.id uid req.clientId req.scope := by
    rw [ea, List.map_append, List.map_append, List.map_cons, ← List.append_assoc] at hs1
    obtain ⟨m, m', h1, h2, h3⟩ := run_at hs1
    obtain ⟨info, hx, h4⟩ := authorizes_new h2
    cases hx
    refine ⟨info, rfl, authorizes_run (ok_step (ok_run (ok_init users clients) h1) h2) h3 hpod1 h4 ?_⟩
    intro sc' rr hm
    obtain ⟨⟨k, e⟩, hm, he⟩ := List.mem_map.1 hm
    simp only at he
    subst he
    exact hauth k sc' rr (by rw [ea]; simp [hm])
  -- the session
  have hse : s1.session code = some (newSession info ⟨req.redirectURI, code, policy.authSessionExpiresIn,
      req.codeVerifier, req.nonce, authTime⟩) := by
    rw [eb, List.map_append, List.map_append, List.map_cons, ← List.append_assoc] at hs1
    obtain ⟨m, m', h1, h2, h3⟩ := run_at hs1
    obtain ⟨_, rfl⟩ := h2
    refine session_run h3 (find_set_self AuthSession.code m.sessions _) ?_ ?_
    · intro y rr hm he
      obtain ⟨⟨k, e⟩, hm, he'⟩ := List.mem_map.1 hm
      simp only at he'
      subst he'
      have := hspent k y rr (by rw [eb]; simp [hm]) he
      subst this
      exact hj0 _ (by rw [eb]; simp; exact .inr (.inr (.inr hm)))
    · intro i' y rr hm he
      obtain ⟨⟨k, e⟩, hm, he'⟩ := List.mem_map.1 hm
      simp only at he'
      subst he'
      obtain ⟨d1, d2, rfl⟩ := List.append_of_mem hm
      exact hfresh (g0 ++ b1) d1 (d2 ++ g2) i k (some info) i' ⟨req.redirectURI, code, policy.authSessionExpiresIn,
        req.codeVerifier, req.nonce, authTime⟩ y none rr (by rw [eb]; simp) he.symm
  have hgc : ∀ k i' y rr, (k, (⟨.createAuthSession i' y, rr⟩ : Event)) ∈ g2 → y.code ≠ code := by
    intro k i' y rr hm he
    obtain ⟨d1, d2, rfl⟩ := List.append_of_mem hm
    exact hfresh (g0 ++ b1) (b2 ++ d1) d2 i k (some info) i' ⟨req.redirectURI, code, policy.authSessionExpiresIn,
        req.codeVerifier, req.nonce, authTime⟩ y none rr (by rw [eb]; simp) he.symm
  rw [← hcid] at hau hauth
  refine redeem (sess := newSession info ⟨req.redirectURI, code, policy.authSessionExpiresIn,
      req.codeVerifier, req.nonce, authTime⟩) hq hru hrun' (hcode' ▸ hne) hver hkey hrun ?_
  intro a e b he
  obtain ⟨t1, t2, ht, ht1, _⟩ := filter_split he
  obtain ⟨p, q, m, m', rfl, hp, h1, h2, h3⟩ := event_at hs2 ht
  have hokm := ok_run hok1 h1
  have hpodm : m.infoIdPod < 2 ^ 63 := Nat.lt_of_le_of_lt (Nat.le_trans (pod_step h2) (pod_run h3)) hsmall
  have hauthm : m.Authorizes info.id uid c.id req.scope := by
    refine authorizes_run hok1 h1 hpodm hau fun sc' rr hm => ?_
    obtain ⟨⟨k, e⟩, hm, he'⟩ := List.mem_map.1 hm
    simp only at he'
    subst he'
    exact hauth k sc' rr (by simp [hm])
  refine ⟨by rw [ht]; simp, ?_, ?_, ?_, ?_, ?_, ?_⟩
  · rintro x rfl
    have h4 : m.client c.id = some c := client_here hc (chain_append.2 ⟨_, hs1, h1⟩)
    exact h2.1.trans (by rw [h4]; rfl)
  · rintro x rfl hno
    rw [hcode'] at h2
    have hsm : m.session code = _ := session_run h1 hse (fun y rr hm he => ?_) (fun i' y rr hm => ?_)
    · exact h2.1.trans (by rw [hsm]; rfl)
    · obtain ⟨⟨k, e⟩, hm, he'⟩ := List.mem_map.1 hm
      simp only at he'
      subst he'
      have := hspent k y rr (by simp [hm]) he
      subst this
      refine hno y rr ?_
      rw [← ht1, ← hp]
      exact List.mem_filter.2 ⟨mem_callsOf.2 hm, rfl⟩
    · obtain ⟨⟨k, e⟩, hm, he'⟩ := List.mem_map.1 hm
      simp only at he'
      subst he'
      exact hgc k i' y rr (by simp [hm])
  · rintro x rfl
    obtain ⟨inf, k1, k2, k3, k4, k5⟩ := hauthm
    exact ⟨inf, h2.1.trans (by rw [show (newSession info _).authId = info.id from rfl, k1]; rfl), k3, k4, k5⟩
  · rintro inf b' x rfl
    obtain ⟨n1, n2, hx, _⟩ := h2
    exact ⟨n1, n2, hx⟩
  · rintro y x rfl
    exact h2.1
  · rintro x rfl
    exact h2.1

/-! ## Refreshing -/

/-- What the reference store answers while a token is refreshed. -/
structure RefreshFacts (t : List Event) (c : Client) (tok : GoStr) (id : Int64) (scope : GoStr) (past : List Event) (e : Event) :
    Prop where
  mem : e ∈ t
  client : ∀ x, e = ⟨.findClientById c.id, x⟩ → x = (some c, none)
  find : ∀ x, e = ⟨.findOAuthTokenByRefreshToken tok, x⟩ → (∀ i old x, ⟨.refreshAccessToken i old, x⟩ ∉ past) →
    ∃ old : OAuthToken, x = (some old, none) ∧ old.authId = id
  info : ∀ x, e = ⟨.findActiveAuthInfoById id, x⟩ → ∃ info : AuthInfo, x = (some info, none) ∧
    info.clientId = c.id ∧ info.scope = scope
  refresh : ∀ i old x, e = ⟨.refreshAccessToken i old, x⟩ → ⟨.findOAuthTokenByRefreshToken tok, (some old, none)⟩ ∈ past →
    (∀ i old x, ⟨.refreshAccessToken i old, x⟩ ∉ past) → ∃ tk : OAuthToken, x = (some tk, none) ∧ tk.refreshToken = tok

theorem refreshes {cfg : TokenCfg} {lib : Lib} {r : Req} {c : Client} {t : List Event} {o : Outcome Unit} {id : Int64}
    {scope : GoStr} (hq : RequestOf cfg lib r .refresh c) (hn : r.formValue b!"refresh_token" ≠ [])
    (hoff : HasWord scope b!"offline_access") (hlive : RefreshNotExpired t (r.formValue b!"refresh_token")) (h : Runs (handler cfg lib r) t o)
    (hF : ∀ a e b, interactions t = a ++ e :: b → RefreshFacts t c (r.formValue b!"refresh_token") id scope a e) :
    ∃ calls token, RepliesWith cfg t o calls (.granted token scope []) ∧ token.refreshToken = r.formValue b!"refresh_token" := by
  obtain ⟨sec, b, hp, hsec⟩ := hq.secret
  have := tf_run (F := RefreshFacts t c (r.formValue b!"refresh_token") id scope) (kind := .refresh)
    (Q := fun _ res => ∃ token, res = .inr (.granted token scope []) ∧ token.refreshToken = r.formValue b!"refresh_token")
    hq.registered h hF ?_
  · obtain ⟨calls, e, h1, token, he, h2⟩ := this
    cases he
    exact ⟨calls, token, h1, h2⟩
  unfold tokenTable
  refine tf_goOn (not_not_intro hq.post) (tf_need hq.grantType (tf_goOn (fun h => h _ hq.registered) ?_))
  refine tf_client hp (fun x hx => hx.client x rfl) hsec hq.allowed ?_
  refine tf_observe fun now hnow => ?_
  refine tf_bind ?_
  unfold grantTable refreshGrant
  refine tf_need hn ?_
  refine tf_obtain fun x hx => ?_
  obtain ⟨old, rfl, hid⟩ := hx.find x rfl (by simp)
  refine ⟨old, rfl, tf_goOn (hlive _ _ hx.mem hnow.mem) ?_⟩
  refine tf_obtain fun x hx => ?_
  rw [hid] at hx
  obtain ⟨info, rfl, h1, h2⟩ := hx.info x rfl
  refine ⟨info, rfl, tf_goOn (by simp [h1]) (tf_goOn (not_not_intro (h2 ▸ hoff)) ?_)⟩
  refine tf_obtain fun x hx => ?_
  obtain ⟨tk, rfl, h3⟩ := hx.refresh _ _ x rfl (by simp) (by simp)
  exact ⟨tk, rfl, tf_pure (tf_reply ⟨tk, by rw [h2], h3⟩)⟩

/-- How the calls of a request that was answered 200 obtained its token. -/
inductive Obtained (pre : List Event) (info : AuthInfo) (tk : OAuthToken) : Prop
  | created (a b : List Event) : pre = a ++ ⟨.createOAuthToken (some info) true, (some tk, none)⟩ :: b →
      (∀ i old x, ⟨.refreshAccessToken i old, x⟩ ∉ pre) → Obtained pre info tk
  | refreshed (a b c : List Event) (k : GoStr) (old : OAuthToken) :
      pre = a ++ ⟨.findOAuthTokenByRefreshToken k, (some old, none)⟩ :: b ++ ⟨.refreshAccessToken info old, (some tk, none)⟩ :: c →
      (∀ i old x, ⟨.refreshAccessToken i old, x⟩ ∉ a ++ b ++ c) → k ≠ [] →
      ⟨.findActiveAuthInfoById old.authId, (some info, none)⟩ ∈ pre → HasWord info.scope b!"offline_access" →
      Obtained pre info tk

/-- The calls `pre` obtained the authorization `info`. -/
def InfoFrom (pre : List Event) (info : AuthInfo) : Prop :=
  (∃ id, ⟨.findActiveAuthInfoById id, (some info, none)⟩ ∈ pre) ∨
  ∃ u c sc, ⟨.createOrUpdateAuthInfo u c sc, (some info, none)⟩ ∈ pre

theorem auth_not {auth : List Event} (ha : ∀ e ∈ auth, IsAuthCall e.q) {q : Query} (hq : ¬ IsAuthCall q) (x : q.Resp) :
    (⟨q, x⟩ : Event) ∉ auth := fun h => hq (ha _ h)

theorem created_of {pre d1 d2 : List Event} {info : AuthInfo} {tk : OAuthToken}
    (h : dataCalls pre = d1 ++ ⟨.createOAuthToken (some info) true, (some tk, none)⟩ :: d2)
    (h1 : ∀ i old x, ⟨.refreshAccessToken i old, x⟩ ∉ d1) (h2 : ∀ i old x, ⟨.refreshAccessToken i old, x⟩ ∉ d2) :
    Obtained pre info tk := by
  obtain ⟨t1, t2, ht, _, _⟩ := filter_split h
  refine .created t1 t2 ht fun i old x hm => ?_
  have := (mem_dataCalls (e := ⟨.refreshAccessToken i old, x⟩) rfl).2 hm
  rw [h] at this
  simp only [List.mem_append, List.mem_cons] at this
  rcases this with h3 | h3 | h3
  · exact h1 _ _ _ h3
  · cases h3
  · exact h2 _ _ _ h3

theorem obtained_of_200 {cfg : TokenCfg} {lib : Lib} {r : Req} {pre : List Event} {resp : HttpResp} (hb : AllBuiltIn lib cfg)
    (h : Steps (handler cfg lib r) (pre ++ [wrote resp])) (h200 : resp.status = 200) :
    ∃ res info tk, resp.body = Response.json res ∧ res.accessToken = tk.accessToken ∧ res.refreshToken = tk.refreshToken ∧
      res.expiresIn = tk.accessTokenExpiresIn ∧ res.scope = info.scope ∧ InfoFrom pre info ∧ Obtained pre info tk := by
  obtain ⟨_, _, hf, _, _, _, _, _, hreg, _⟩ := token_200 (fun h hr => builtIn_silent (hb _ h hr)) h h200
  cases hb _ hf hreg with
  | authorizationCode =>
    obtain ⟨c, auth, now, sess, info, tk, idc, res, _, h2, _, h4, _, _, _, _, _, h10, h11⟩ := code_200 hreg h h200
    have hm : (⟨.findActiveAuthInfoById sess.authId, (some info, none)⟩ : Event) ∈ pre :=
      (mem_dataCalls rfl).1 (by rw [h4]; simp)
    have hres : res.accessToken = tk.accessToken ∧ res.refreshToken = tk.refreshToken ∧ res.scope = info.scope ∧
        res.expiresIn = tk.accessTokenExpiresIn := by
      rcases h10 with ⟨_, iss, idt, _, _, rfl⟩ | ⟨_, _, rfl⟩ <;> exact ⟨rfl, rfl, rfl, rfl⟩
    refine ⟨res, info, tk, by rw [h11], hres.1, hres.2.1, hres.2.2.2, hres.2.2.1, .inl ⟨_, hm⟩, ?_⟩
    refine created_of (d1 := auth ++ [⟨.findAuthSessionByCode (r.formValue b!"code"), (some sess, none)⟩,
         ⟨.findActiveAuthInfoById sess.authId, (some info, none)⟩]) (d2 := ⟨.disableSession sess, none⟩ :: idc)
      (by rw [h4]; simp) ?_ ?_
    · intro i old x hx
      simp only [List.mem_append, List.mem_cons, List.not_mem_nil, or_false] at hx
      rcases hx with hx | hx | hx
      · exact auth_not h2 (by simp [IsAuthCall]) _ hx
      · cases hx
      · cases hx
    · intro i old x hx
      rcases h10 with ⟨_, iss, idt, rfl, _⟩ | ⟨_, rfl, _⟩
      · simp only [List.mem_cons, List.not_mem_nil, or_false] at hx
        rcases hx with hx | hx <;> cases hx
      · simp only [List.mem_cons, List.not_mem_nil, or_false] at hx
        cases hx
  | refreshToken =>
    obtain ⟨c, auth, now, old, info, tk, res, _, h2, _, h4, h5, _, _, h8, h9, _, h10, hx, h12, h13, _⟩ := C16_refresh hreg h h200
    have hm : (⟨.findActiveAuthInfoById old.authId, (some info, none)⟩ : Event) ∈ pre :=
      (mem_dataCalls rfl).1 (by rw [h4]; simp)
    refine ⟨res, info, tk, h9, h10, h12, hx, h13, .inl ⟨_, hm⟩, ?_⟩
    obtain ⟨a, rest, rfl, ha, hrest⟩ := filter_split h4
    obtain ⟨b, c, rfl, hb', hc'⟩ := filter_split (a := [⟨.findActiveAuthInfoById old.authId, (some info, none)⟩])
      (b := []) hrest
    refine .refreshed a b c _ old (by simp) ?_ h5 hm ?_
    · intro i o x hx
      simp only [List.mem_append] at hx
      rcases hx with (hx | hx) | hx
      · have := (mem_dataCalls (e := ⟨.refreshAccessToken i o, x⟩) rfl).2 hx
        rw [show dataCalls a = auth from ha] at this
        exact auth_not h2 (by simp [IsAuthCall]) _ this
      · have := (mem_dataCalls (e := ⟨.refreshAccessToken i o, x⟩) rfl).2 hx
        rw [show dataCalls b = _ from hb'] at this
        simp only [List.mem_cons, List.not_mem_nil, or_false] at this
        cases this
      · have := (mem_dataCalls (e := ⟨.refreshAccessToken i o, x⟩) rfl).2 hx
        rw [show dataCalls c = _ from hc'] at this
        cases this
    · exact hasWord_iff.2 (h8 _ (fields_iff.2 rfl))
  | password =>
    obtain ⟨c, auth, uid, info, tk, res, _, h2, h4, _, _, h9, _, h10, hx, h12, h13, _⟩ := C18_password hreg h h200
    have hm : (⟨.createOrUpdateAuthInfo uid c.id (r.formValue b!"scope"), (some info, none)⟩ : Event) ∈ pre :=
      (mem_dataCalls rfl).1 (by rw [h4]; simp)
    refine ⟨res, info, tk, h9, h10, h12, hx, h13, .inr ⟨_, _, _, hm⟩, ?_⟩
    refine created_of (d1 := auth ++ [⟨.findUserId (r.formValue b!"username") (r.formValue b!"password"), (uid, none)⟩,
         ⟨.createOrUpdateAuthInfo uid c.id (r.formValue b!"scope"), (some info, none)⟩]) (d2 := [])
      (by rw [h4]; simp) ?_ (by simp)
    intro i old x hx
    simp only [List.mem_append, List.mem_cons, List.not_mem_nil, or_false] at hx
    rcases hx with hx | hx | hx
    · exact auth_not h2 (by simp [IsAuthCall]) _ hx
    · cases hx
    · cases hx
  | clientCredentials =>
    obtain ⟨c, auth, info, tk, res, _, h2, h4, _, h9, _, h10, hx, h12, h13, _⟩ := C19_client_credentials hreg h h200
    have hm : (⟨.createOrUpdateAuthInfo c.ownerUserId c.id (r.formValue b!"scope"), (some info, none)⟩ : Event) ∈ pre :=
      (mem_dataCalls rfl).1 (by rw [h4]; simp)
    refine ⟨res, info, tk, h9, h10, h12, hx, h13, .inr ⟨_, _, _, hm⟩, ?_⟩
    refine created_of (d1 := auth ++ [⟨.createOrUpdateAuthInfo c.ownerUserId c.id (r.formValue b!"scope"), (some info, none)⟩])
      (d2 := []) (by rw [h4]; simp) ?_ (by simp)
    intro i old x hx
    simp only [List.mem_append, List.mem_cons, List.not_mem_nil, or_false] at hx
    rcases hx with hx | hx
    · exact auth_not h2 (by simp [IsAuthCall]) _ hx
    · cases hx
  | jwt =>
    obtain ⟨c, auth, tkn, exp, iat, aud, sub, uid, info, tk, res, _, h2, _, _, _, _, _, _, _, h4, h9, _, h10, hx, h12, h13, _⟩ :=
      C20_jwt_bearer hreg h h200
    have hm : (⟨.createOrUpdateAuthInfo uid c.id (r.formValue b!"scope"), (some info, none)⟩ : Event) ∈ pre :=
      (mem_dataCalls rfl).1 (by rw [h4]; simp)
    refine ⟨res, info, tk, h9, h10, h12, hx, h13, .inr ⟨_, _, _, hm⟩, ?_⟩
    refine created_of (d1 := auth ++ [⟨.recordAssertionClaims c.id ((tkn.claimStr b!"jti").getD []) iat exp, none⟩,
         ⟨.issuer, aud⟩, ⟨.findUserIdBySubject sub, (uid, none)⟩,
         ⟨.createOrUpdateAuthInfo uid c.id (r.formValue b!"scope"), (some info, none)⟩]) (d2 := [])
      (by rw [h4]; simp) ?_ (by simp)
    intro i old x hx
    simp only [List.mem_append, List.mem_cons, List.not_mem_nil, or_false] at hx
    rcases hx with hx | hx | hx | hx | hx
    · exact auth_not h2 (by simp [IsAuthCall]) _ hx
    all_goals cases hx

/-- Nothing follows the answer of the token endpoint. -/
theorem wrote_last {cfg : TokenCfg} {lib : Lib} {r : Req} {pre post : List Event} {resp : HttpResp} (hb : AllBuiltIn lib cfg)
    (h : Steps (handler cfg lib r) (pre ++ wrote resp :: post)) : post = [] := by
  obtain ⟨t', o, hr⟩ := steps_complete h
  have hw := writes_handler (cfg := cfg) (lib := lib) (r := r) fun h hr => builtIn_silent (hb _ h hr)
  have hno : ∀ l : List Event, NoWrite l → wrote resp ∉ l := fun l hl hm => by
    have := hl _ hm
    cases this
  cases o with
  | panic => exact absurd (by simp) (hno _ (hw.panic hr))
  | ok a =>
    rcases hw.ok hr with ⟨_, pre', resp', hn, he⟩ | ⟨hq, _⟩
    · rw [List.append_assoc, List.cons_append] at he
      rcases List.eq_nil_or_concat (post ++ t') with h0 | ⟨l, x, hl⟩
      · exact (List.append_eq_nil_iff.1 h0).1
      · rw [hl] at he
        have : pre ++ wrote resp :: l ++ [x] = pre' ++ [wrote resp'] := by rw [← he]; simp
        obtain ⟨h1, _⟩ := List.append_inj' this rfl
        rw [← h1] at hn
        exact absurd (by simp) (hno _ hn)
    · exact absurd trivial hq

/-- The authorization a request obtained. -/
theorem authorizes_from {users clients} {g : List (Nat × Event)} {s : StoreState} {i : Nat} {info : AuthInfo} {h0 h1 : List (Nat × Event)}
    (hg : g = h0 ++ h1) (hs : StoreRun (StoreState.init users clients) (g.map (·.2)) s) (hsmall : s.infoIdPod < 2 ^ 63)
    (hi : InfoFrom (callsOf i h1) info) (ha : OnlyAuthorized h1 info.userId info.clientId info.scope) :
    s.Authorizes info.id info.userId info.clientId info.scope := by
  have key : ∀ e : Event, (i, e) ∈ h1 → (∀ m m' : StoreState, m.Ok → m.Ok2 → m.Answers e m' →
      m'.Authorizes info.id info.userId info.clientId info.scope) → s.Authorizes info.id info.userId info.clientId info.scope := by
    intro e he hk
    obtain ⟨a, b, rfl⟩ := List.append_of_mem he
    rw [hg, List.map_append, List.map_append, List.map_cons, ← List.append_assoc] at hs
    obtain ⟨m, m', h1, h2, h3⟩ := run_at hs
    have hok := ok_run (ok_init users clients) h1
    refine authorizes_run (ok_step hok h2) h3 hsmall (hk m m' hok (ok2_run (ok2_init users clients) h1) h2) ?_
    intro sc' rr hm
    obtain ⟨⟨k, e⟩, hm, he'⟩ := List.mem_map.1 hm
    simp only at he'
    subst he'
    exact ha k sc' rr (by simp [hm])
  rcases hi with ⟨id, hm⟩ | ⟨u, c, sc, hm⟩
  · refine key _ (mem_callsOf.1 hm) fun m m' hok hok2 h => ?_
    have h1 := answer_some h.1.symm
    have h2 : m' = m := h.2
    subst h2
    refine ⟨info, ?_, rfl, rfl, rfl, hok2.subject info (info_mem h1).1⟩
    rw [(info_mem h1).2]
    exact h1
  · refine key _ (mem_callsOf.1 hm) fun m m' hok hok2 h => ?_
    obtain ⟨info', hx, inf, h1, h2, h3, h4, h5⟩ := authorizes_new h
    cases hx
    obtain ⟨h6, h7⟩ : info.userId = u ∧ info.clientId = c ∧ info.scope = sc := by
      rcases h with ⟨i, _, hu, hc, hx, _⟩ | ⟨_, hx, _⟩
      · cases hx; exact ⟨hu, hc, rfl⟩
      · cases hx; exact ⟨rfl, rfl, rfl⟩
    rw [h6, h7.1, h7.2]
    exact ⟨inf, h1, h2, h3, h4, h5⟩

/-- C88: on the reference store, with any requests running concurrently: when a token request was answered 200
with a refresh token, the client of the authorization can refresh.  A request that starts after the answer, comes from that client with its
secret and presents the refresh token is granted a token with the scope of the answer and with the same refresh token — unless the refresh
token has expired, the user authorizes the client for another scope in the meantime, tokens of the
authorization are issued for another scope, or another request refreshes its tokens too. -/
theorem C88_refreshable {users clients} {s' : StoreState} {cfg : TokenCfg} {lib : Lib} {r : Req} {resp : HttpResp} {i : Nat}
    (hg : Interleaves ths (g0 ++ g1 ++ g2))
    (hs : StoreRun (StoreState.init users clients) ((g0 ++ g1 ++ g2).map (·.2)) s') (hsmall : s'.infoIdPod < 2 ^ 63)
    (hi : ths i = ⟨handler cfg lib r⟩) (hb : AllBuiltIn lib cfg) (hi0 : ∀ e, (i, e) ∉ g0)
    (hw : (i, wrote resp) ∈ g1) (h200 : resp.status = 200) :
    ∃ res info, resp.body = Response.json res ∧ res.scope = info.scope ∧ IssuedFor (callsOf i g1) info res ∧
      (res.refreshToken ≠ [] →
      ∀ (j : Nat) (cfg' : TokenCfg) (lib' : Lib) (r' : Req) (c : Client) (o : Outcome Unit),
        (∀ e, (j, e) ∉ g0 ++ g1) → Runs (handler cfg' lib' r') (callsOf j g2) o →
        TheClient clients c → c.id = info.clientId → RequestOf cfg' lib' r' .refresh c →
        r'.formValue b!"refresh_token" = res.refreshToken → RefreshNotExpired (callsOf j g2) res.refreshToken →
        OnlyAuthorized (g1 ++ g2) info.userId info.clientId info.scope → OnlyTokens (g1 ++ g2) info.id info.scope →
        OnlyRefreshedBy (g1 ++ g2) info.id i j →
        ∃ calls token, RepliesWith cfg' (callsOf j g2) o calls (.granted token info.scope []) ∧
          token.refreshToken = res.refreshToken) := by
  have hgi := hg i
  rw [hi, callsOf_append, callsOf_append] at hgi
  have hi0' : callsOf i g0 = [] := by
    cases hc : callsOf i g0 with
    | nil => rfl
    | cons e t => exact absurd (mem_callsOf.1 (hc ▸ List.mem_cons_self)) (hi0 e)
  rw [hi0', List.nil_append] at hgi
  obtain ⟨pre, post, hpre⟩ := List.append_of_mem (mem_callsOf.2 hw)
  rw [hpre, List.append_assoc, List.cons_append] at hgi
  have hlast := wrote_last hb hgi
  obtain ⟨rfl, hi2⟩ := List.append_eq_nil_iff.1 hlast
  rw [List.nil_append, hi2] at hgi
  obtain ⟨res, info, tk, hbody, hacc, href, hexp, hsc, hinfo, hob⟩ := obtained_of_200 hb hgi h200
  have hsub : ∀ e ∈ pre, e ∈ callsOf i g1 := fun e he => by rw [hpre]; simp [he]
  refine ⟨res, info, hbody, hsc, ⟨tk, hacc.symm, href.symm, hexp.symm, ?_⟩, ?_⟩
  · cases hob with
    | created a b he _ => exact .inl (hsub _ (by rw [he]; simp))
    | refreshed a b c k old he _ _ _ _ => exact .inr ⟨old, hsub _ (by rw [he]; simp)⟩
  intro hrt j cfg' lib' r' c o hj0 hrun hc hcid hq htok hlive hauth honly hrefr
  rw [List.map_append] at hs
  obtain ⟨s1, hs1, hs2⟩ := chain_append.1 hs
  have hok1 := ok_run (ok_init users clients) hs1
  have hpod1 : s1.infoIdPod < 2 ^ 63 := Nat.lt_of_le_of_lt (pod_run hs2) hsmall
  have hinfo' : InfoFrom (callsOf i g1) info := by
    rcases hinfo with ⟨id, h⟩ | ⟨u, c, sc, h⟩
    · exact .inl ⟨id, hsub _ h⟩
    · exact .inr ⟨u, c, sc, hsub _ h⟩
  have hau : s1.Authorizes info.id info.userId info.clientId info.scope :=
    authorizes_from rfl hs1 hpod1 hinfo' fun k sc' rr hm => hauth k sc' rr (by simp [hm])
  -- the refresh token is stored at the end of `g1`
  have hoffOf : ∀ {u : List (Nat × Event)}, (∀ x ∈ u, x ∈ g1 ++ g2) → HasWord info.scope b!"offline_access" →
      ∀ (inf : AuthInfo) b rr, (⟨.createOAuthToken (some inf) b, rr⟩ : Event) ∈ u.map (·.2) → inf.id = info.id →
        HasWord inf.scope b!"offline_access" := by
    intro u hu ho inf b rr hm hid
    obtain ⟨⟨k, e⟩, hm, he'⟩ := List.mem_map.1 hm
    simp only at he'
    subst he'
    rw [honly k inf b rr (hu _ hm) hid]
    exact ho
  have hnoRef : ∀ {u : List (Nat × Event)}, (∀ x ∈ u, x ∈ g1 ++ g2) → (∀ a b x, (i, (⟨.refreshAccessToken a b, x⟩ : Event)) ∉ u) →
      (∀ a b x, (j, (⟨.refreshAccessToken a b, x⟩ : Event)) ∉ u) →
      ∀ inf old tk', (⟨.refreshAccessToken inf old, (some tk', none)⟩ : Event) ∈ u.map (·.2) → tk'.authId ≠ info.id := by
    intro u hu hi hj inf old tk' hm hid
    obtain ⟨⟨k, e⟩, hm, he'⟩ := List.mem_map.1 hm
    simp only at he'
    subst he'
    rcases hrefr k inf old tk' (hu _ hm) hid with rfl | rfl
    · exact hi _ _ _ hm
    · exact hj _ _ _ hm
  have hjg1 : ∀ x, (j, x) ∉ g1 := fun x hx => hj0 x (by simp [hx])
  obtain ⟨hoff, a0, hstored, htk⟩ : HasWord info.scope b!"offline_access" ∧ ∃ a, s1.Refreshable a info.id ∧
      tk.refreshToken = b!"REFRESH_TOKEN_" ++ itoa info.id := by
    cases hob with
    | created a b he hno =>
      obtain ⟨p, q, hpq, hp, hq'⟩ := callsOf_split (g := g1) (u := a)
        (e := ⟨.createOAuthToken (some info) true, (some tk, none)⟩) (v := b ++ [wrote resp]) (by rw [hpre, he]; simp)
      rw [hpq, List.map_append, List.map_append, List.map_cons, ← List.append_assoc] at hs1
      obtain ⟨m, m', h1, h2, h3⟩ := run_at hs1
      have hokm := ok_run (ok_init users clients) h1
      have hokm' := ok_step hokm h2
      obtain ⟨n1, n2, hx, rfl⟩ := h2
      cases hx
      have hoff : HasWord info.scope b!"offline_access" := by
        rw [← scope_hasWord]
        rw [href] at hrt
        by_cases hy : Scope.includes info.scope b!"offline_access" = true
        · exact hy
        · refine absurd ?_ hrt
          show (if Scope.includes info.scope b!"offline_access" = true then b!"REFRESH_TOKEN_" ++ itoa info.id else []) = []
          rw [if_neg hy]
      have hval : (StoreState.newToken info n1 n2).refreshToken = b!"REFRESH_TOKEN_" ++ itoa info.id := by
        show (if Scope.includes info.scope b!"offline_access" = true then b!"REFRESH_TOKEN_" ++ itoa info.id else []) = _
        rw [if_pos (scope_hasWord.2 hoff)]
      refine ⟨hoff, (StoreState.newToken info n1 n2).accessToken, ?_, hval⟩
      have hu : ∀ x ∈ q, x ∈ g1 ++ g2 := fun x hx => by rw [hpq]; simp [hx]
      refine refreshable_run hokm' h3 ⟨_, token_set_self m _, rfl, hval⟩ (hoffOf hu hoff)
        (hnoRef hu (fun a' b' x hm => ?_) fun a' b' x hm => hjg1 ⟨.refreshAccessToken a' b', x⟩ (by rw [hpq]; simp [hm]))
      have := mem_callsOf.2 hm
      rw [hq'] at this
      simp only [List.mem_append, List.mem_cons, List.not_mem_nil, or_false] at this
      rcases this with h4 | h4
      · exact hno a' b' x (by rw [he]; simp [h4])
      · cases h4
    | refreshed a b c' k old he hno hk hfi hoff =>
      refine ⟨hoff, ?_⟩
      obtain ⟨p, q, hpq, hp, hq'⟩ := callsOf_split (g := g1) (u := a)
        (e := ⟨.findOAuthTokenByRefreshToken k, (some old, none)⟩)
        (v := b ++ ⟨.refreshAccessToken info old, (some tk, none)⟩ :: c' ++ [wrote resp]) (by rw [hpre, he]; simp)
      obtain ⟨p', q', hpq', hp', hq''⟩ := callsOf_split (g := q) (u := b)
        (e := ⟨.refreshAccessToken info old, (some tk, none)⟩) (v := c' ++ [wrote resp]) (by rw [hq']; simp)
      subst hpq'
      have hid : old.authId = info.id := by
        obtain ⟨d1, d2, hd⟩ := List.append_of_mem (hsub _ hfi)
        obtain ⟨x1, x2, hx, _, _⟩ := callsOf_split hd
        rw [hx, List.map_append, List.map_append, List.map_cons, ← List.append_assoc] at hs1
        obtain ⟨m, m', _, h2, _⟩ := run_at hs1
        exact (info_mem (answer_some h2.1.symm)).2.symm
      rw [hpq, List.map_append, List.map_append, List.map_cons, ← List.append_assoc] at hs1
      obtain ⟨m, m', h1, h2, h3⟩ := run_at hs1
      have hokm := ok_run (ok_init users clients) h1
      have hmm : m' = m := h2.1
      subst hmm
      have hold : m'.Refreshable old.accessToken info.id := by
        rcases h2.2 with ⟨t, ht, htk, hx⟩ | ⟨_, hx⟩
        · cases hx
          refine ⟨_, hokm.tokenKeys _ ht, hid, ?_⟩
          rcases (ok2_run (ok2_init users clients) h1).refresh _ ht with h4 | h4
          · exact absurd (htk.symm.trans h4) hk
          · rw [h4, hid]
        · cases hx
      rw [List.map_append, List.map_cons] at h3
      obtain ⟨n, n', h4, h5, h6⟩ := run_at h3
      have hokn := ok_run hokm h4
      have hu : ∀ x ∈ p', x ∈ g1 ++ g2 := fun x hx => by rw [hpq]; simp [hx]
      obtain ⟨t, k1, k2, k3⟩ := refreshable_run hokm h4 hold (hoffOf hu hoff)
        (hnoRef hu (fun a' b' x hm => by
          have := mem_callsOf.2 hm
          rw [hp'] at this
          exact hno a' b' x (by simp [this])) fun a' b' x hm => hjg1 ⟨.refreshAccessToken a' b', x⟩ (by rw [hpq]; simp [hm]))
      have hokn' := ok_step hokn h5
      obtain ⟨t', n0, ht', hx, rfl⟩ := h5
      cases hx
      have : t' = t := Option.some.inj (ht'.symm.trans k1)
      subst this
      refine ⟨(StoreState.refreshed t' n0).accessToken, ?_, k3⟩
      have hu : ∀ x ∈ q', x ∈ g1 ++ g2 := fun x hx => by rw [hpq]; simp [hx]
      refine refreshable_run hokn' h6 ⟨_, token_set_self _ _, k2, k3⟩ (hoffOf hu hoff)
        (hnoRef hu (fun a' b' x hm => ?_) fun a' b' x hm => hjg1 ⟨.refreshAccessToken a' b', x⟩ (by rw [hpq]; simp [hm]))
      have := mem_callsOf.2 hm
      rw [hq''] at this
      simp only [List.mem_append, List.mem_cons, List.not_mem_nil, or_false] at this
      rcases this with h4 | h4
      · exact hno a' b' x (by simp [h4])
      · cases h4
  have htok' : r'.formValue b!"refresh_token" = b!"REFRESH_TOKEN_" ++ itoa info.id := by rw [htok, href, htk]
  rw [← hcid] at hau hauth
  have hn : r'.formValue b!"refresh_token" ≠ [] := by rw [htok]; exact hrt
  rw [← htok]
  refine refreshes (id := info.id) hq hn hoff (htok ▸ hlive) hrun ?_
  intro a e b he
  obtain ⟨t1, t2, ht, ht1, _⟩ := filter_split he
  obtain ⟨p, q, m, m', hg2, hp, h1, h2, h3⟩ := event_at hs2 ht
  have hokm := ok_run hok1 h1
  have hpodm : m.infoIdPod < 2 ^ 63 := Nat.lt_of_le_of_lt (Nat.le_trans (pod_step h2) (pod_run h3)) hsmall
  have hig2 : ∀ x, (i, x) ∉ g2 := fun x hx => by
    have := mem_callsOf.2 hx
    rw [hi2] at this
    cases this
  have hjno : (∀ i old x, (⟨.refreshAccessToken i old, x⟩ : Event) ∉ a) →
      ∀ a' b' x, (j, (⟨.refreshAccessToken a' b', x⟩ : Event)) ∉ p := by
    intro hno a' b' x hm
    refine hno a' b' x ?_
    rw [← ht1, ← hp]
    exact List.mem_filter.2 ⟨mem_callsOf.2 hm, rfl⟩
  refine ⟨by rw [ht]; simp, ?_, ?_, ?_, ?_⟩
  · rintro x rfl
    have h4 : m.client c.id = some c := client_here hc (chain_append.2 ⟨_, hs1, h1⟩)
    exact h2.1.trans (by rw [h4]; rfl)
  · rintro x rfl hno
    have hu : ∀ x ∈ p, x ∈ g1 ++ g2 := fun x hx => by rw [hg2]; simp [hx]
    obtain ⟨t, k1, k2, k3⟩ := refreshable_run hok1 h1 hstored (hoffOf hu hoff)
      (hnoRef hu (fun a' b' x hm => hig2 ⟨.refreshAccessToken a' b', x⟩ (by rw [hg2]; simp [hm])) (hjno hno))
    rcases h2.2 with ⟨old, h4, h5, hx⟩ | ⟨h4, _⟩
    · refine ⟨old, hx, ?_⟩
      rcases (ok2_run (ok2_run (ok2_init users clients) hs1) h1).refresh _ h4 with h6 | h6
      · exact absurd (h5.symm.trans h6) hn
      · rw [h6, htok'] at h5
        exact itoa_injective (List.append_cancel_left h5)
    · exact absurd (k3.trans htok'.symm) (h4 t (token_mem k1).1)
  · rintro x rfl
    obtain ⟨inf, k1, k2, k3, k4, k5⟩ := authorizes_run hok1 h1 hpodm hau fun sc' rr hm => by
      obtain ⟨⟨k, e⟩, hm, he'⟩ := List.mem_map.1 hm
      simp only at he'
      subst he'
      exact hauth k sc' rr (by rw [hg2]; simp [hm])
    exact ⟨inf, h2.1.trans (by rw [k1]; rfl), k3, k4⟩
  · rintro inf old x rfl hfind hno
    have hfind' : (⟨.findOAuthTokenByRefreshToken (r'.formValue b!"refresh_token"), (some old, none)⟩ : Event) ∈ callsOf j p := by
      rw [hp]
      have := List.mem_filter.1 (ht1 ▸ hfind)
      exact this.1
    obtain ⟨x1, x2, hx12⟩ := List.append_of_mem (mem_callsOf.1 hfind')
    rw [hx12, List.map_append, List.map_cons] at h1
    obtain ⟨n, n', h4, h5, h6⟩ := run_at h1
    have hnn : n' = n := h5.1
    subst hnn
    have hokn := ok_run hok1 h4
    have hold : n'.Refreshable old.accessToken info.id := by
      rcases h5.2 with ⟨t, ht, htk, hx⟩ | ⟨_, hx⟩
      · cases hx
        rcases (ok2_run (ok2_run (ok2_init users clients) hs1) h4).refresh _ ht with h7 | h7
        · exact absurd (htk.symm.trans h7) hn
        · have hid : old.authId = info.id := by
            rw [h7, htok'] at htk
            exact itoa_injective (List.append_cancel_left htk)
          exact ⟨_, hokn.tokenKeys _ ht, hid, by rw [h7, hid]⟩
      · cases hx
    have hu : ∀ x ∈ x2, x ∈ g1 ++ g2 := fun x hx => by rw [hg2, hx12]; simp [hx]
    obtain ⟨t, k1, k2, k3⟩ := refreshable_run hokn h6 hold (hoffOf hu hoff)
      (hnoRef hu (fun a' b' x hm => hig2 ⟨.refreshAccessToken a' b', x⟩ (by rw [hg2, hx12]; simp [hm]))
        (fun a' b' x hm => hjno hno a' b' x (by rw [hx12]; simp [hm])))
    obtain ⟨t', n0, ht', hx, _⟩ := h2
    have : t' = t := Option.some.inj (ht'.symm.trans k1)
    subst this
    exact ⟨_, hx, k3.trans htok'.symm⟩

/-- C88: on the reference store, with any requests running concurrently: the access token of a token response admits
the requests that present it from then on, with the identity of the user and the client it was issued for and the scope it
was issued with.  That is, unless the token expired or was replaced by a refreshed one, or the user authorizes the client for
another scope in the meantime. -/
theorem C88_access_usable {users clients} {s' : StoreState} {cfg : TokenCfg} {lib : Lib} {r : Req} {resp : HttpResp} {i : Nat}
    (hg : Interleaves ths (g0 ++ g1 ++ g2))
    (hs : StoreRun (StoreState.init users clients) ((g0 ++ g1 ++ g2).map (·.2)) s') (hsmall : s'.infoIdPod < 2 ^ 63)
    (hi : ths i = ⟨handler cfg lib r⟩) (hb : AllBuiltIn lib cfg) (hi0 : ∀ e, (i, e) ∉ g0)
    (hw : (i, wrote resp) ∈ g1) (h200 : resp.status = 200) :
    ∃ res info, resp.body = Response.json res ∧ res.scope = info.scope ∧ IssuedFor (callsOf i g1) info res ∧
      ∀ (j : Nat) (pcfg : ProtectorCfg) (plib : Lib) (pr : Req) (o : Outcome (Bool × Req)),
        (∀ e, (j, e) ∉ g0 ++ g1) → Runs (ResourceProtector.validate pcfg plib pr) (callsOf j g2) o →
        BearerToken pcfg.acceptance pr res.accessToken → AccessNotExpired (callsOf j g2) res.accessToken →
        OnlyAuthorized (g1 ++ g2) info.userId info.clientId info.scope → NotRefreshed (g1 ++ g2) res.accessToken →
        ∃ pr', o = .ok (true, pr') ∧
          headerValues pr' b!"X-OAUTH-USER-ID" = [itoa info.userId] ∧
          headerValues pr' b!"X-OAUTH-CLIENT-ID" = [info.clientId] ∧
          headerValues pr' b!"X-OAUTH-SCOPE" = [info.scope] := by
  have hgi := hg i
  rw [hi, callsOf_append, callsOf_append] at hgi
  have hi0' : callsOf i g0 = [] := by
    cases hc : callsOf i g0 with
    | nil => rfl
    | cons e t => exact absurd (mem_callsOf.1 (hc ▸ List.mem_cons_self)) (hi0 e)
  rw [hi0', List.nil_append] at hgi
  obtain ⟨pre, post, hpre⟩ := List.append_of_mem (mem_callsOf.2 hw)
  rw [hpre, List.append_assoc, List.cons_append] at hgi
  have hlast := wrote_last hb hgi
  obtain ⟨rfl, hi2⟩ := List.append_eq_nil_iff.1 hlast
  rw [List.nil_append, hi2] at hgi
  obtain ⟨res, info, tk, hbody, hacc, href, hexp, hsc, hinfo, hob⟩ := obtained_of_200 hb hgi h200
  have hsub : ∀ e ∈ pre, e ∈ callsOf i g1 := fun e he => by rw [hpre]; simp [he]
  refine ⟨res, info, hbody, hsc, ⟨tk, hacc.symm, href.symm, hexp.symm, ?_⟩, ?_⟩
  · cases hob with
    | created a b he _ => exact .inl (hsub _ (by rw [he]; simp))
    | refreshed a b c k old he _ _ _ _ => exact .inr ⟨old, hsub _ (by rw [he]; simp)⟩
  intro j pcfg plib pr o hj0 hrun hbt hlive hauth hrefr
  rw [hacc] at hbt hrefr hlive
  rw [List.map_append] at hs
  obtain ⟨s1, hs1, hs2⟩ := chain_append.1 hs
  have hok1 := ok_run (ok_init users clients) hs1
  have hpod1 : s1.infoIdPod < 2 ^ 63 := Nat.lt_of_le_of_lt (pod_run hs2) hsmall
  have hinfo' : InfoFrom (callsOf i g1) info := by
    rcases hinfo with ⟨id, h⟩ | ⟨u, c, sc, h⟩
    · exact .inl ⟨id, hsub _ h⟩
    · exact .inr ⟨u, c, sc, hsub _ h⟩
  have hau : s1.Authorizes info.id info.userId info.clientId info.scope :=
    authorizes_from rfl hs1 hpod1 hinfo' fun k sc' rr hm => hauth k sc' rr (by simp [hm])
  have hnr : ∀ {u : List (Nat × Event)}, (∀ x ∈ u, x ∈ g1 ++ g2) →
      ∀ inf old rr, (⟨.refreshAccessToken inf old, rr⟩ : Event) ∈ u.map (·.2) → old.accessToken ≠ tk.accessToken := by
    intro u hu inf old rr hm
    obtain ⟨⟨k, e⟩, hm, he'⟩ := List.mem_map.1 hm
    simp only at he'
    subst he'
    exact hrefr k inf old rr (hu _ hm)
  -- the access token is stored at the end of `g1`
  have hstored : s1.TokenOf tk.accessToken info.id := by
    cases hob with
    | created a b he hno =>
      obtain ⟨p, q, hpq, hp, hq'⟩ := callsOf_split (g := g1) (u := a)
        (e := ⟨.createOAuthToken (some info) true, (some tk, none)⟩) (v := b ++ [wrote resp]) (by rw [hpre, he]; simp)
      rw [hpq, List.map_append, List.map_append, List.map_cons, ← List.append_assoc] at hs1
      obtain ⟨m, m', h1, h2, h3⟩ := run_at hs1
      have hokm' := ok_step (ok_run (ok_init users clients) h1) h2
      obtain ⟨n1, n2, hx, rfl⟩ := h2
      cases hx
      exact tokenOf_run hokm' h3 ⟨_, token_set_self m _, rfl⟩ (hnr fun x hx => by rw [hpq]; simp [hx])
    | refreshed a b c' k old he hno hk hfi hoff =>
      obtain ⟨p, q, hpq, hp, hq'⟩ := callsOf_split (g := g1) (u := a ++ ⟨.findOAuthTokenByRefreshToken k, (some old, none)⟩ :: b)
        (e := ⟨.refreshAccessToken info old, (some tk, none)⟩) (v := c' ++ [wrote resp]) (by rw [hpre, he]; simp)
      have hid : old.authId = info.id := by
        obtain ⟨d1, d2, hd⟩ := List.append_of_mem (hsub _ hfi)
        obtain ⟨x1, x2, hx, _, _⟩ := callsOf_split hd
        rw [hx, List.map_append, List.map_append, List.map_cons, ← List.append_assoc] at hs1
        obtain ⟨m, m', _, h2, _⟩ := run_at hs1
        exact (info_mem (answer_some h2.1.symm)).2.symm
      -- the token found is the token stored under its name: both are called after their authorization
      obtain ⟨y1, y2, hy, hy1, _⟩ := callsOf_split (g := p) (u := a) (e := ⟨.findOAuthTokenByRefreshToken k, (some old, none)⟩) (v := b) hp
      rw [hpq, List.map_append, List.map_append, List.map_cons, ← List.append_assoc] at hs1
      obtain ⟨m, m', h1, h2, h3⟩ := run_at hs1
      have hokm := ok_run (ok_init users clients) h1
      have hokm' := ok_step hokm h2
      have hold : ∃ n, old.accessToken = tokenName old.authId n := by
        rw [hy, List.map_append, List.map_cons, ← List.append_assoc] at h1
        obtain ⟨w, w', k1, k2, k3⟩ := run_at h1
        rcases k2.2 with ⟨t, ht, _, hx⟩ | ⟨_, hx⟩
        · cases hx
          exact (ok_run (ok_init users clients) k1).tokenNames _ ht
        · cases hx
      obtain ⟨t', n0, ht', hx, rfl⟩ := h2
      cases hx
      have hid' : t'.authId = info.id := by
        obtain ⟨n, hn⟩ := hold
        obtain ⟨n', hn'⟩ := hokm.tokenNames t' (token_mem ht').1
        rw [(token_mem ht').2, hn] at hn'
        exact (tokenName_inj hn').symm.trans hid
      exact tokenOf_run hokm' h3 ⟨_, token_set_self _ _, hid'⟩ (hnr fun x hx => by rw [hpq]; simp [hx])
  -- what the store says to request `j`
  have htok : ∀ x, (⟨.findOAuthTokenByAccessToken tk.accessToken, x⟩ : Event) ∈ callsOf j g2 →
      ∃ t, x = (some t, none) ∧ t.authId = info.id := by
    intro x hm
    obtain ⟨p, q, rfl⟩ := List.append_of_mem (mem_callsOf.1 hm)
    rw [List.map_append, List.map_cons] at hs2
    obtain ⟨m, m', h1, h2, h3⟩ := run_at hs2
    obtain ⟨t, ht, hid⟩ := tokenOf_run hok1 h1 hstored (hnr fun x hx => by simp [hx])
    exact ⟨t, h2.1.trans (by rw [ht]; rfl), hid⟩
  have hinf : ∀ x, (⟨.findActiveAuthInfoById info.id, x⟩ : Event) ∈ callsOf j g2 →
      ∃ inf, x = (some inf, none) ∧ inf.userId = info.userId ∧ inf.clientId = info.clientId ∧ inf.scope = info.scope := by
    intro x hm
    obtain ⟨p, q, rfl⟩ := List.append_of_mem (mem_callsOf.1 hm)
    rw [List.map_append, List.map_cons] at hs2
    obtain ⟨m, m', h1, h2, h3⟩ := run_at hs2
    obtain ⟨inf, k1, k2, k3, k4, _⟩ := authorizes_run hok1 h1
      (Nat.lt_of_le_of_lt (Nat.le_trans (pod_step h2) (pod_run h3)) hsmall) hau fun sc' rr hm => by
        obtain ⟨⟨k, e⟩, hm, he'⟩ := List.mem_map.1 hm
        simp only at he'
        subst he'
        exact hauth k sc' rr (by simp [hm])
    exact ⟨inf, h2.1.trans (by rw [k1]; rfl), k2, k3, k4⟩
  obtain ⟨hfind, hne⟩ := find_iff.2 hbt
  generalize callsOf j g2 = tr at hrun htok hinf hlive
  unfold ResourceProtector.validate at hrun
  dsimp only at hrun
  rw [hfind, if_neg hne] at hrun
  replace hrun := runs_bind_ask.1 hrun
  obtain ⟨x, t', rfl, hrun⟩ := hrun
  obtain ⟨atk, rfl, hid⟩ := htok x List.mem_cons_self
  dsimp only at hrun
  unfold ResourceProtector.validateToken at hrun
  replace hrun := runs_bind_ask.1 hrun
  obtain ⟨n, t'', rfl, hrun⟩ := hrun
  rw [if_neg (hlive atk n List.mem_cons_self (List.mem_cons_of_mem _ List.mem_cons_self))] at hrun
  unfold ResourceProtector.validateInfo at hrun
  replace hrun := runs_bind_ask.1 hrun
  obtain ⟨y, t3, rfl, hrun⟩ := hrun
  rw [hid] at hinf
  obtain ⟨inf, rfl, k2, k3, k4⟩ := hinf y (by simp)
  obtain ⟨_, rfl⟩ := hrun
  refine ⟨_, rfl, ?_, ?_, ?_⟩
  · rw [setHeader_values_other _ _ (by decide +kernel), setHeader_values_other _ _ (by decide +kernel),
      setHeader_values_self, k2]
  · rw [setHeader_values_other _ _ (by decide +kernel), setHeader_values_self, k3]
  · rw [setHeader_values_self, k4]

/-- The authorizations the reference store reports as active are active. -/
theorem C60_active_only {users clients} {t : List Event} {s s' : StoreState} {id : Int64} {info : AuthInfo}
    (h : StoreRun (StoreState.init users clients) t s)
    (ha : s.Answers ⟨.findActiveAuthInfoById id, (some info, none)⟩ s') : info.isActive = true ∧ info.subject = itoa info.userId := by
  have h1 := answer_some ha.1.symm
  have h2 := ok2_run (ok2_init users clients) h
  exact ⟨h2.active info (info_mem h1).1, h2.subject info (info_mem h1).1⟩

/-- It does report some. -/
example : ∃ s info, StoreRun (StoreState.init [] []) [⟨.createOrUpdateAuthInfo 5 b!"client" b!"openid",
    (some info, none)⟩] s ∧ s.Answers ⟨.findActiveAuthInfoById 0, (some info, none)⟩ s :=
  ⟨(StoreState.init [] []).addInfo 5 b!"client" b!"openid", newInfo 0 5 b!"client" b!"openid",
    .cons (.inr ⟨by simp [StoreState.init], rfl, rfl⟩) (.nil _), by decide +kernel, rfl⟩

/-! ## The hypotheses can be met -/

/-- The three parts of the calls of the sample deployment: up to the consent screen, the consent, and the
rest; and up to the delivery of the code, its redemption, and the rest. -/
example : ∃ g0 g1 g2 s' resp c,
    Sample.chainCalls = g0 ++ g1 ++ g2 ∧ Interleaves Sample.chainEndpoints (g0 ++ g1 ++ g2) ∧
    StoreRun (StoreState.init [⟨5, b!"u", b!"p"⟩] [Sample.client]) ((g0 ++ g1 ++ g2).map (·.2)) s' ∧ s'.infoIdPod < 2 ^ 63 ∧
    CodesFresh (g0 ++ g1 ++ g2) ∧ (∀ e, (1, e) ∉ g0) ∧ (1, wrote resp) ∈ g1 ∧
    (1, ⟨.createAuthorizationCode, some c⟩) ∈ g1 ∧ (∀ e, (2, e) ∉ g0 ++ g1) ∧
    Runs (handler Sample.tokenCfg Sample.lib (Sample.post Sample.codeBody)) (callsOf 2 g2) (.ok ()) ∧
    TheClient [Sample.client] Sample.client ∧
    RequestOf Sample.tokenCfg Sample.lib (Sample.post Sample.codeBody) .code Sample.client ∧
    (Sample.post Sample.codeBody).formValue b!"code" = c ∧ c ≠ [] ∧
    (Sample.post Sample.codeBody).formValue b!"redirect_uri" = b!"https://app/cb" ∧
    ChallengeFits Sample.lib (Sample.post Sample.codeBody) b!"verifier" ∧
    KeyFits Sample.lib Sample.client.idTokenAlg Sample.client.idTokenKey ∧
    OnlySpentBy (g1 ++ g2) c 2 ∧ OnlyAuthorized (g1 ++ g2) 5 b!"client" b!"openid offline_access email" := by
  have hall : Sample.chainCalls = Sample.chainCalls.take 6 ++ (Sample.chainCalls.drop 6).take 7 ++ (Sample.chainCalls.drop 6).drop 7 := by
    rw [List.append_assoc, List.take_append_drop, List.take_append_drop]
  have hno : ∀ {l : List (Nat × Event)} {k : Nat}, l.all (fun x => x.1 != k) = true → ∀ e, (k, e) ∉ l := by
    intro l k h e he
    simpa using List.all_eq_true.1 h _ he
  obtain ⟨resp, hresp⟩ : ∃ resp, (1, wrote resp) ∈ (Sample.chainCalls.drop 6).take 7 := by
    obtain ⟨resp, h, _⟩ := answered_mem (g := (Sample.chainCalls.drop 6).take 7) (i := 1) (n := 302) (by decide +kernel)
    exact ⟨resp, h⟩
  refine ⟨_, _, _, Sample.chainRun.2.1, resp, b!"code", hall, ?_, ?_, by decide +kernel, ?_, hno (by decide +kernel), hresp, ?_,
    hno (by decide +kernel), ?_, ?_, ?_, by decide +kernel, by decide, by decide +kernel, ?_, ?_, ?_, ?_⟩
  · rw [← hall]; exact Sample.chain_interleaves
  · rw [← hall]; exact Sample.chain_store
  · rw [← hall]; exact codesFresh_of_nodup (by decide +kernel)
  · have h : ((Sample.chainCalls.drop 6).take 7).any (fun x => match x with
        | (1, ⟨.createAuthorizationCode, some c⟩) => c == b!"code"
        | _ => false) = true := by decide +kernel
    obtain ⟨x, hx, hp⟩ := List.any_eq_true.1 h
    split at hp
    · rw [← eq_of_beq hp]; exact hx
    · cases hp
  · have h := Sample.chain_runs.1
    rw [hall, callsOf_append] at h
    rwa [show callsOf 2 (Sample.chainCalls.take 6 ++ (Sample.chainCalls.drop 6).take 7) = [] from ?_, List.nil_append] at h
    have : (Sample.chainCalls.take 6 ++ (Sample.chainCalls.drop 6).take 7).all (fun x => x.1 != 2) = true := by decide +kernel
    cases hx : callsOf 2 (Sample.chainCalls.take 6 ++ (Sample.chainCalls.drop 6).take 7) with
    | nil => rfl
    | cons e t => exact absurd (mem_callsOf.1 (hx ▸ List.mem_cons_self)) (hno this e)
  · exact ⟨by simp, by simp⟩
  · exact ⟨rfl, by decide +kernel, rfl, ⟨b!"secret", true, .header _ b!"secret" (by decide +kernel), by decide +kernel⟩,
      by decide +kernel⟩
  · exact .inl ⟨by decide +kernel, by decide +kernel⟩
  · exact (⟨by decide, by decide +kernel⟩ : Sample.client.idTokenAlg ∈ hmacAlgs ∧ Sample.lib.signOk Sample.client.idTokenAlg b!"key" = true)
  · exact Sample.onlySpentBy_of (by decide +kernel)
  · exact Sample.onlyAuthorized_of (by decide +kernel)

example : ∃ g0 g1 g2 s' resp,
    Interleaves Sample.chainEndpoints (g0 ++ g1 ++ g2) ∧
    StoreRun (StoreState.init [⟨5, b!"u", b!"p"⟩] [Sample.client]) ((g0 ++ g1 ++ g2).map (·.2)) s' ∧ s'.infoIdPod < 2 ^ 63 ∧
    AllBuiltIn Sample.lib Sample.tokenCfg ∧ (∀ e, (2, e) ∉ g0) ∧ (2, wrote resp) ∈ g1 ∧ resp.status = 200 ∧
    (∀ e, (3, e) ∉ g0 ++ g1) ∧
    Runs (handler Sample.tokenCfg Sample.lib (Sample.post Sample.rtBody)) (callsOf 3 g2) (.ok ()) ∧
    TheClient [Sample.client] Sample.client ∧
    RequestOf Sample.tokenCfg Sample.lib (Sample.post Sample.rtBody) .refresh Sample.client ∧
    (Sample.post Sample.rtBody).formValue b!"refresh_token" = b!"REFRESH_TOKEN_0" ∧
    RefreshNotExpired (callsOf 3 g2) b!"REFRESH_TOKEN_0" ∧ OnlyAuthorized (g1 ++ g2) 5 b!"client" b!"openid offline_access email" ∧
    OnlyTokens (g1 ++ g2) 0 b!"openid offline_access email" ∧ OnlyRefreshedBy (g1 ++ g2) 0 2 3 ∧
    ∃ resp', (3, wrote resp') ∈ g2 ∧ resp'.status = 200 := by
  have hall : Sample.chainCalls = Sample.chainCalls.take 13 ++ (Sample.chainCalls.drop 13).take 10 ++ (Sample.chainCalls.drop 13).drop 10 := by
    rw [List.append_assoc, List.take_append_drop, List.take_append_drop]
  have hno : ∀ {l : List (Nat × Event)} {k : Nat}, l.all (fun x => x.1 != k) = true → ∀ e, (k, e) ∉ l := by
    intro l k h e he
    simpa using List.all_eq_true.1 h _ he
  obtain ⟨resp, hresp, h200⟩ : ∃ resp, (2, wrote resp) ∈ (Sample.chainCalls.drop 13).take 10 ∧ resp.status = 200 :=
    answered_mem (by decide +kernel)
  refine ⟨Sample.chainCalls.take 13, (Sample.chainCalls.drop 13).take 10, (Sample.chainCalls.drop 13).drop 10,
    Sample.chainRun.2.1, resp, ?_, ?_, by decide +kernel, sample_allBuiltIn, hno (by decide +kernel), hresp, h200,
    hno (by decide +kernel), ?_, ?_, ?_, by decide +kernel, ?_, ?_, ?_, ?_, answered_mem (by decide +kernel)⟩
  · rw [← hall]; exact Sample.chain_interleaves
  · rw [← hall]; exact Sample.chain_store
  · have h := Sample.chain_runs.2
    rw [hall, callsOf_append] at h
    rwa [show callsOf 3 (Sample.chainCalls.take 13 ++ (Sample.chainCalls.drop 13).take 10) = [] from ?_, List.nil_append] at h
    have : (Sample.chainCalls.take 13 ++ (Sample.chainCalls.drop 13).take 10).all (fun x => x.1 != 3) = true := by decide +kernel
    cases hx : callsOf 3 (Sample.chainCalls.take 13 ++ (Sample.chainCalls.drop 13).take 10) with
    | nil => rfl
    | cons e t => exact absurd (mem_callsOf.1 (hx ▸ List.mem_cons_self)) (hno this e)
  · exact ⟨by simp, by simp⟩
  · exact ⟨rfl, by decide +kernel, rfl, ⟨b!"secret", true, .header _ b!"secret" (by decide +kernel), by decide +kernel⟩,
      by decide +kernel⟩
  · exact Sample.refreshNotExpired_of (by decide +kernel)
  · exact Sample.onlyAuthorized_of (by decide +kernel)
  · exact Sample.onlyTokens_of (by decide +kernel)
  · exact Sample.onlyRefreshedBy_of (by decide +kernel)

/-- A protected request after the code was redeemed. -/
example : ∃ g0 g1 g2 s' resp,
    Interleaves Sample.webEndpoints (g0 ++ g1 ++ g2) ∧
    StoreRun (StoreState.init [⟨5, b!"u", b!"p"⟩] [Sample.client]) ((g0 ++ g1 ++ g2).map (·.2)) s' ∧ s'.infoIdPod < 2 ^ 63 ∧
    AllBuiltIn Sample.lib Sample.tokenCfg ∧ (∀ e, (2, e) ∉ g0) ∧ (2, wrote resp) ∈ g1 ∧ resp.status = 200 ∧
    (∀ e, (3, e) ∉ g0 ++ g1) ∧
    (∃ o, Runs (ResourceProtector.validate Sample.protectorCfg Sample.lib Sample.bearerReq) (callsOf 3 g2) o) ∧
    BearerToken Sample.protectorCfg.acceptance Sample.bearerReq b!"ACCESS_TOKEN_0" ∧
    AccessNotExpired (callsOf 3 g2) b!"ACCESS_TOKEN_0" ∧ OnlyAuthorized (g1 ++ g2) 5 b!"client" b!"openid offline_access email" ∧
    NotRefreshed (g1 ++ g2) b!"ACCESS_TOKEN_0" := by
  have hall : Sample.webCalls = Sample.webCalls.take 13 ++ (Sample.webCalls.drop 13).take 10 ++ (Sample.webCalls.drop 13).drop 10 := by
    rw [List.append_assoc, List.take_append_drop, List.take_append_drop]
  have hno : ∀ {l : List (Nat × Event)} {k : Nat}, l.all (fun x => x.1 != k) = true → ∀ e, (k, e) ∉ l := by
    intro l k h e he
    simpa using List.all_eq_true.1 h _ he
  obtain ⟨resp, hresp, h200⟩ : ∃ resp, (2, wrote resp) ∈ (Sample.webCalls.drop 13).take 10 ∧ resp.status = 200 :=
    answered_mem (by decide +kernel)
  refine ⟨Sample.webCalls.take 13, (Sample.webCalls.drop 13).take 10, (Sample.webCalls.drop 13).drop 10,
    Sample.webRun.2.1, resp, ?_, ?_, by decide +kernel, sample_allBuiltIn, hno (by decide +kernel), hresp, h200,
    hno (by decide +kernel), ?_, find_iff.1 ⟨by decide +kernel, by decide⟩, ?_, ?_, ?_⟩
  · rw [← hall]; exact Sample.web_interleaves
  · rw [← hall]; exact Sample.web_store Sample.web_chain
  · obtain ⟨_, h⟩ := Sample.web_admitted
    rw [hall, callsOf_append] at h
    rw [show callsOf 3 (Sample.webCalls.take 13 ++ (Sample.webCalls.drop 13).take 10) = [] from ?_, List.nil_append] at h
    · exact ⟨_, h⟩
    have : (Sample.webCalls.take 13 ++ (Sample.webCalls.drop 13).take 10).all (fun x => x.1 != 3) = true := by decide +kernel
    cases hx : callsOf 3 (Sample.webCalls.take 13 ++ (Sample.webCalls.drop 13).take 10) with
    | nil => rfl
    | cons e t => exact absurd (mem_callsOf.1 (hx ▸ List.mem_cons_self)) (hno this e)
  · exact Sample.accessNotExpired_of (by decide +kernel)
  · exact Sample.onlyAuthorized_of (by decide +kernel)
  · exact Sample.notRefreshed_of (by decide +kernel)

end Goidc.Props
