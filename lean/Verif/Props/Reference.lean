import Verif.Lemmas.Reference
import Verif.Props.Origin
import Verif.Props.AuthPrompt
import Verif.Props.TokenEndpoint
import Verif.Props.Authorization

/-! # C93: the reference store as it is set up -/

namespace Goidc.Props

open Spec TokenEndpoint ResourceProtector AuthzEndpoint

variable {key : GoStr} {ops : List SetupOp} {ths : Nat → Thread} {g : List (Nat × Event)} {s : StoreState}

/-- The clients of a set-up store. -/
theorem setup_client (key : GoStr) (ops : List SetupOp) (cid : GoStr) (c : Client) :
    (setupOf key ops).store.client cid = some c ↔
      ∃ tc k, (cid, k) ∈ (setupOf key ops).clients ∧ (setupOf key ops).objs[k]? = some tc ∧ c = tc.toClient := by
  have ok := clients_ok key ops
  generalize setupOf key ops = s at ok
  unfold StoreState.client Setup.store
  simp only
  have key : ∀ l : List (GoStr × Nat), (∀ p ∈ l, ∃ tc, s.objs[p.2]? = some tc ∧ tc.id = p.1) → (l.map (·.1)).Nodup →
      ((l.filterMap fun p => (s.objs[p.2]?).map TestClient.toClient).find? (·.id = cid) = some c ↔
        ∃ tc k, (cid, k) ∈ l ∧ s.objs[k]? = some tc ∧ c = tc.toClient) := by
    intro l hl hn
    induction l with
    | nil => simp
    | cons p l ih =>
      obtain ⟨tc, h1, h2⟩ := hl p (by simp)
      simp only [List.map_cons, List.nodup_cons, List.mem_map, not_exists, not_and] at hn
      rw [List.filterMap_cons, h1]
      simp only [Option.map_some, List.find?_cons, TestClient.toClient, h2, List.mem_cons]
      by_cases hp : p.1 = cid
      · simp only [hp, decide_true]
        constructor
        · intro h
          exact ⟨tc, p.2, .inl (by rw [← hp]), h1, by cases h; simp [TestClient.toClient, h2, hp]⟩
        · rintro ⟨tc', k, h | h, h3, rfl⟩
          · have hk : k = p.2 := by rw [← h]
            rw [hk, h1] at h3
            cases h3
            simp [TestClient.toClient, h2, hp]
          · exact absurd hp.symm (hn.1 _ h)
      · simp only [hp, decide_false]
        rw [show (fun a => decide ((a : Client).id = cid)) = fun a => decide (a.id = cid) from rfl]
        refine (ih (fun p h => hl p (by simp [h])) hn.2).trans ?_
        constructor
        · rintro ⟨tc', k, h, h'⟩; exact ⟨tc', k, .inr h, h'⟩
        · rintro ⟨tc', k, h | h, h'⟩
          · exact absurd (by rw [← h]) hp
          · exact ⟨tc', k, h, h'⟩
  refine key s.clients (fun p hp => ?_) ok.keys
  obtain ⟨_, _, _, c', _, h1, _, h2, _⟩ := ok.sound p hp
  exact ⟨c', h1, h2⟩

/-- C93: `FindClientById` finds exactly the registered client: the last one made with that id since everything was
cleared, with the secret, redirect URI and owner it was made with and the grant types it was allowed. -/
theorem C93_client (key : GoStr) (ops : List SetupOp) (cid : GoStr) :
    (∀ c, (setupOf key ops).store.client cid = some c →
      ∃ k owner secret uri, RegisteredClient ops k owner cid secret uri ∧ IsReference ops k owner cid secret uri c) ∧
    (∀ k owner secret uri, RegisteredClient ops k owner cid secret uri →
      ∃ c, (setupOf key ops).store.client cid = some c ∧ IsReference ops k owner cid secret uri c) := by
  have ok := clients_ok key ops
  have main : ∀ c k tc, (cid, k) ∈ (setupOf key ops).clients → (setupOf key ops).objs[k]? = some tc → c = tc.toClient →
      ∃ owner secret uri, RegisteredClient ops k owner cid secret uri ∧ IsReference ops k owner cid secret uri c := by
    rintro c k tc h1 h2 rfl
    obtain ⟨owner, secret, uri, c', h3, h4, h5, h6, h7, h8, _⟩ := ok.sound _ h1
    simp only at h3 h4 h5 h6 h7 h8
    rw [h2] at h4
    cases h4
    refine ⟨owner, secret, uri, h3, ⟨h6, h5, fun x => ?_, fun x => ?_, fun gt => ?_, fun _ _ => ?_, rfl, rfl⟩⟩
    · simp [TestClient.toClient, h7, eq_comm]
    · simp [TestClient.toClient, h8, eq_comm]
    · rw [← ok.grants k tc h2 gt]; simp [TestClient.toClient]
    · simp [TestClient.toClient, h7]
  refine ⟨fun c hc => ?_, fun k owner secret uri h => ?_⟩
  · obtain ⟨tc, k, h1, h2, h3⟩ := (setup_client key ops cid c).1 hc
    obtain ⟨o, sec, u, h⟩ := main c k tc h1 h2 h3
    exact ⟨k, o, sec, u, h⟩
  · have h1 := ok.complete _ _ _ _ _ h
    obtain ⟨_, _, _, tc, _, h2, _⟩ := ok.sound _ h1
    obtain ⟨o, sec, u, h3, h4⟩ := main tc.toClient k tc h1 h2 rfl
    have : o = owner ∧ sec = secret ∧ u = uri := by
      obtain ⟨a, b, e1, k1, c1, n1⟩ := h
      obtain ⟨a', b', e2, k2, c2, n2⟩ := h3
      have hlen : ∀ {a b a' b' : List SetupOp} {x : Int64} {y : GoStr × GoStr}, a ++ SetupOp.createClient owner cid secret uri :: b =
          a' ++ SetupOp.createClient x cid y.1 y.2 :: b' → (∀ o s u, .createClient o cid s u ∉ b) →
          (∀ o s u, .createClient o cid s u ∉ b') → x = owner ∧ y.1 = secret ∧ y.2 = uri := by
        intro a b a' b' x y e hb hb'
        rcases List.append_eq_append_iff.1 e with ⟨c, h1, h2⟩ | ⟨c, h1, h2⟩
        · cases c with
          | nil => simp at h2; simp [h2]
          | cons z c => simp at h2; exact absurd (by rw [h2.2]; simp) (hb x y.1 y.2)
        · cases c with
          | nil => simp at h2; simp [h2]
          | cons z c => simp at h2; exact absurd (by rw [h2.2]; simp) (hb' owner secret uri)
      exact hlen (y := (sec, u)) (e1.symm.trans e2) n1 n2
    obtain ⟨rfl, rfl, rfl⟩ := this
    exact ⟨_, (setup_client key ops cid _).2 ⟨tc, k, h1, h2, rfl⟩, h4⟩

/-- C93: `FindUserId` and `FindUserIdBySubject` find exactly the registered users. -/
theorem C93_user (key : GoStr) (hl : ops.length < 2 ^ 63) {name pass : GoStr} {uid : Int64} :
    ((setupOf key ops).store.step (.findUserId name pass) (uid, none) (setupOf key ops).store ↔
      RegisteredUser ops name pass uid) ∧
    ((setupOf key ops).store.step (.findUserIdBySubject name) (uid, none) (setupOf key ops).store ↔
      ∃ pass, RegisteredUser ops name pass uid) := by
  obtain ⟨_, _, hu⟩ := users_ok key ops hl
  constructor
  · constructor
    · rintro ⟨_, ⟨u, hm, rfl, rfl, h⟩ | ⟨_, h⟩⟩
      · cases h; exact (hu u).1 hm
      · cases h
    · intro h
      exact ⟨rfl, .inl ⟨⟨uid, name, pass⟩, (hu ⟨uid, name, pass⟩).2 h, rfl, rfl, rfl⟩⟩
  · constructor
    · rintro ⟨_, ⟨u, hm, rfl, h⟩ | ⟨_, h⟩⟩
      · cases h; exact ⟨_, (hu u).1 hm⟩
      · cases h
    · rintro ⟨pass, h⟩
      exact ⟨rfl, .inl ⟨⟨uid, name, pass⟩, (hu ⟨uid, name, pass⟩).2 h, rfl, rfl⟩⟩

/-- C93: of two users created one after the other, with no `ClearAll` in between, the second gets another id. -/
theorem C93_user_ids {a b : List SetupOp} {name pass : GoStr} {uid uid' : Int64} (h1 : uid.toInt = usersAfter 0 a)
    (hb : .clearAll ∉ b) (h2 : uid'.toInt = usersAfter 0 (a ++ .createUser name pass :: b)) : uid ≠ uid' := by
  have mono : ∀ (n : Nat) (l : List SetupOp), .clearAll ∉ l → n ≤ usersAfter n l := by
    intro n l hl
    induction l generalizing n with
    | nil => exact Nat.le_refl _
    | cons x l ih =>
      simp only [List.mem_cons, not_or] at hl
      cases x <;> simp only [usersAfter]
      case createUser => exact Nat.le_trans (Nat.le_succ n) (ih _ hl.2)
      case clearAll => exact absurd rfl hl.1
      all_goals exact ih _ hl.2
  rintro rfl
  rw [usersAfter_append] at h2
  simp only [usersAfter] at h2
  have := mono (usersAfter 0 a + 1) b hb
  omega

/-! ## In service -/

theorem users_step {s s' : StoreState} {e : Event} (h : s.Answers e s') : s'.users = s.users := by
  obtain ⟨q, r⟩ := e
  unfold StoreState.Answers at h
  cases q
  case createOAuthToken i b => cases i <;> simp only [StoreState.step] at h; obtain ⟨_, _, _, rfl⟩ := h; rfl
  case createAuthSession i x => cases i <;> simp only [StoreState.step] at h; obtain ⟨_, rfl⟩ := h; rfl
  case createOrUpdateAuthInfo u c sc =>
    simp only [StoreState.step] at h
    rcases h with ⟨_, _, _, _, _, rfl⟩ | ⟨_, _, rfl⟩ <;> rfl
  case refreshAccessToken => obtain ⟨_, _, _, _, rfl⟩ := h; rfl
  case disableSession => obtain ⟨_, rfl⟩ := h; rfl
  all_goals
    simp only [StoreState.step] at h
    first
      | rw [h.2]
      | rw [h.1]
      | rw [h]

theorem users_run {s s' : StoreState} {t : List Event} (h : StoreRun s t s') : s'.users = s.users := by
  induction h with
  | nil => rfl
  | cons h1 _ ih => rw [ih, users_step h1]

/-- A client that was found is the registered one. -/
theorem found_reference {i : Nat} {cid : GoStr} {c : Client} {e : Option ErrType}
    (hr : StoreRun (setupOf key ops).store (g.map (·.2)) s) (h : (i, ⟨.findClientById cid, (some c, e)⟩) ∈ g) :
    ∃ k owner secret uri, RegisteredClient ops k owner cid secret uri ∧ IsReference ops k owner cid secret uri c := by
  obtain ⟨a, b, hab⟩ := List.append_of_mem (List.mem_map_of_mem (f := (·.2)) h)
  rw [hab] at hr
  obtain ⟨m, m', h1, h2, _⟩ := run_at hr
  obtain ⟨h2, _⟩ := h2
  have hm : m.client cid = (setupOf key ops).store.client cid := by
    unfold StoreState.client; rw [StoreState.clients_run h1]
  rw [hm] at h2
  cases hc : (setupOf key ops).store.client cid with
  | none => rw [hc] at h2; cases h2
  | some c' =>
    rw [hc] at h2
    cases h2
    exact (C93_client key ops cid).1 c hc

/-- A password that was accepted is that of a registered user. -/
theorem found_user (hl : ops.length < 2 ^ 63) {i : Nat} {name pass : GoStr} {uid : Int64}
    (hr : StoreRun (setupOf key ops).store (g.map (·.2)) s) (h : (i, ⟨.findUserId name pass, (uid, none)⟩) ∈ g) :
    RegisteredUser ops name pass uid := by
  obtain ⟨a, b, hab⟩ := List.append_of_mem (List.mem_map_of_mem (f := (·.2)) h)
  rw [hab] at hr
  obtain ⟨m, m', h1, h2, _⟩ := run_at hr
  refine (C93_user key hl).1.1 ⟨rfl, ?_⟩
  rw [← users_run h1]
  exact h2.2

theorem found_subject (hl : ops.length < 2 ^ 63) {i : Nat} {name : GoStr} {uid : Int64}
    (hr : StoreRun (setupOf key ops).store (g.map (·.2)) s) (h : (i, ⟨.findUserIdBySubject name, (uid, none)⟩) ∈ g) :
    ∃ pass, RegisteredUser ops name pass uid := by
  obtain ⟨a, b, hab⟩ := List.append_of_mem (List.mem_map_of_mem (f := (·.2)) h)
  rw [hab] at hr
  obtain ⟨m, m', h1, h2, _⟩ := run_at hr
  refine (C93_user (pass := []) key hl).2.1 ⟨rfl, ?_⟩
  rw [← users_run h1]
  exact h2.2

/-- An authenticated client has proved itself. -/
theorem authenticated_proved {cfg : TokenCfg} {lib : Lib} {r : Req} {c : Client} {t : List Event} {i : Nat}
    (hr : StoreRun (setupOf key ops).store (g.map (·.2)) s) (ht : ∀ e ∈ t, (i, e) ∈ g)
    (h : Authenticated cfg lib r c t) :
    ∃ k owner secret uri, ClientProved ops cfg lib r k owner c.id secret uri ∧ IsReference ops k owner c.id secret uri c := by
  rcases h with ⟨cid, sec, b, h1, h2, h3⟩ | ⟨ha, ca, tk, sub, h1, ⟨hd, k0, hk, hs⟩, h3, h4⟩
  · obtain ⟨k, owner, secret, uri, hreg, hc⟩ := found_reference hr (ht _ h2)
    have h5 := hc.hasId
    subst h5
    refine ⟨k, owner, secret, uri, ⟨hreg, .inl ⟨b, ?_⟩⟩, hc⟩
    rw [← (hc.hasSecret sec).1 h3]; exact h1
  · obtain ⟨k, owner, secret, uri, hreg, hc⟩ := found_reference hr (ht _ h4)
    have h5 := hc.hasId
    subst h5
    rw [hc.hasKey] at hk
    cases hk
    exact ⟨k, owner, secret, uri, ⟨hreg, .inr ⟨ha, ca, tk, h1, ⟨hd, hs.1, hs.2⟩, h3⟩⟩, hc⟩

/-- C93: over the reference store, set up in any way, among any other requests: an access token is granted only to a
request that presents exactly the secret of the registered client, and only for a grant type that client was allowed,
or that presents an assertion with an HMAC under that secret. -/
theorem C93_token (hg : Interleaves ths g) (hr : StoreRun (setupOf key ops).store (g.map (·.2)) s)
    {cfg : TokenCfg} {lib : Lib} {r : Req} {i : Nat} {resp : HttpResp} (hi : ths i = ⟨handler cfg lib r⟩)
    (hb : AllBuiltIn lib cfg) (hw : (i, wrote resp) ∈ g) (h200 : resp.status = 200) :
    ∃ k owner cid secret uri, ClientProved ops cfg lib r k owner cid secret uri ∧
      ((∃ cid sec b, Presented cfg.acceptance r cid sec b) → GrantAllowed ops k (r.formValue b!"grant_type")) := by
  have hst := hg i
  rw [hi] at hst
  obtain ⟨a, b, hab⟩ := List.append_of_mem (mem_callsOf.2 hw)
  have hst' : Steps (handler cfg lib r) (a ++ [wrote resp]) :=
    steps_of_append (t' := b) (by rw [hab] at hst; simpa using hst)
  have hmem : ∀ t1 : List Event, (∀ e ∈ t1, e ∈ a) → ∀ e ∈ t1, (i, e) ∈ g := fun t1 h e he =>
    mem_callsOf.1 (by rw [hab]; exact List.mem_append_left _ (h e he))
  by_cases hp : ∃ cid sec b, Presented cfg.acceptance r cid sec b
  · obtain ⟨c, t1, now, t2, t3, rfl, hau, hgt, _⟩ :=
      C03_grant_type_allowed_partial (allBuiltIn_silent hb) hst' h200 (.inr hp)
    obtain ⟨k, owner, secret, uri, h1, h2⟩ := authenticated_proved (lib := lib) hr
      (hmem t1 fun e he => by simp [he]) (.inl hau)
    exact ⟨k, owner, c.id, secret, uri, h1, fun _ => (h2.hasGrants _).1 hgt⟩
  · obtain ⟨c, t1, now, t2, t3, rfl, _, hau, _⟩ := C02_authenticated (allBuiltIn_silent hb) hst' h200
    obtain ⟨k, owner, secret, uri, h1, h2⟩ := authenticated_proved (lib := lib) hr
      (hmem t1 fun e he => by simp [he]) hau
    exact ⟨k, owner, c.id, secret, uri, h1, fun h => absurd h hp⟩

/-- C93: every response of an authorization request goes to the redirect URI the client was registered with. -/
theorem C93_redirect (hg : Interleaves ths g) (hr : StoreRun (setupOf key ops).store (g.map (·.2)) s)
    {policy : Policy} {lib : Lib} {r : Req} {i : Nat} {resp : HttpResp} (hi : ths i = ⟨handleRequest policy lib r⟩)
    (hw : (i, wrote resp) ∈ g) :
    ∃ k owner secret uri params ch, RegisteredClient ops k owner (r.formValue b!"client_id") secret uri ∧
      Delivers resp uri params ch := by
  have hst := hg i
  rw [hi] at hst
  obtain ⟨pre, post, clnt, params, ch, h1, ⟨e, _, h2⟩, h3, h4⟩ := C30_not_open_redirector hst (mem_callsOf.2 hw)
  obtain ⟨k, owner, secret, uri, h5, h6⟩ := found_reference (i := i) hr
    (mem_callsOf.1 (by rw [h1]; exact List.mem_append_left _ h2))
  refine ⟨k, owner, secret, uri, params, ch, h5, ?_⟩
  rw [← (h6.hasUri _).1 h3]; exact h4

/-- C93: an authorization request never succeeds without asking the user. -/
theorem C93_consent (hr : StoreRun (setupOf key ops).store (g.map (·.2)) s)
    {policy : Policy} {lib : Lib} {r : Req} {i : Nat} {pre : List Event} {resp : HttpResp}
    (hi : callsOf i g = pre ++ [wrote resp]) : ¬ Runs (handleRequest policy lib r) (pre ++ [wrote resp]) (.ok true) := by
  intro h
  have hmem : ∀ clnt, FoundClient r clnt pre → clnt.noConsentPromptPolicy = .forceConsent ∧
      clnt.nonePromptPolicy = .forbidden := by
    rintro clnt ⟨e, _, h2⟩
    obtain ⟨k, owner, secret, uri, h5, h6⟩ := found_reference (i := i) hr
      (mem_callsOf.1 (by rw [hi]; exact List.mem_append_left _ h2))
    exact ⟨h6.asksConsent, h6.neverSilent⟩
  obtain ⟨_, clnt, f, info, sc, hf, _, _, _, h1 | h1⟩ := C37_consent_skipped h (fields_iff.2 rfl)
  · exact C34_forbidden h h1 fun c hc => (hmem c hc).2
  · rw [(hmem clnt hf).1] at h1; cases h1

theorem entitled_justified (hl : ops.length < 2 ^ 63) {i : Nat} {th : Thread} {t : List Event} {uid : Int64} {cid sc : GoStr}
    (hr : StoreRun (setupOf key ops).store (g.map (·.2)) s) (ht : ∀ e ∈ t, (i, e) ∈ g) (h : Entitled th t uid cid sc) :
    Justified ops th t uid cid sc := by
  cases h with
  | consent h1 h2 => exact .consent h1 h2
  | password h1 h2 h3 h4 =>
    obtain ⟨k, owner, secret, uri, h5, _⟩ := authenticated_proved hr ht h2
    exact .password h1 h5 (found_user hl hr (ht _ h3))
  | owner h1 h2 h3 h4 =>
    obtain ⟨k, owner, secret, uri, h5, h6⟩ := authenticated_proved hr ht h2
    have := h6.hasOwner
    subst this
    exact .owner h1 h5 h3
  | assertion h1 h2 h3 h4 h5 h6 =>
    obtain ⟨k, owner, secret, uri, h7, h8⟩ := authenticated_proved hr ht h2
    obtain ⟨hd, k0, hk, hs⟩ := h3
    rw [h8.hasKey] at hk
    cases hk
    obtain ⟨pass, h9⟩ := found_subject hl hr (ht _ h5)
    exact .assertion h1 h7 ⟨hd, hs.1, hs.2⟩ h4 h9

/-- C93: over the reference store, set up in any way, among any other requests: the identity an admitted protected
request gets is one that a completed consent of that user, the exact password of a registered user, the registered
ownership of the client, or an assertion under the secret of the client justified earlier. -/
theorem C93_identity (hl : ops.length < 2 ^ 63) (hth : ∀ i, Endpoint (ths i)) (hg : Interleaves ths g)
    (hr : StoreRun (setupOf key ops).store (g.map (·.2)) s) (hp : s.infoIdPod < 2 ^ 63)
    {cfg : ProtectorCfg} {lib : Lib} {r r' : Req} {j : Nat} {t : List Event} (hj : callsOf j g = t)
    (h : Runs (validate cfg lib r) t (.ok (true, r'))) :
    ∃ (uid : Int64) (cid sc : GoStr), headerValues r' b!"X-OAUTH-USER-ID" = [itoa uid] ∧
      headerValues r' b!"X-OAUTH-CLIENT-ID" = [cid] ∧ headerValues r' b!"X-OAUTH-SCOPE" = [sc] ∧
      ∃ k i a b, g = a ++ (k, ⟨.createOrUpdateAuthInfo uid cid sc, (some i, none)⟩) :: b ∧
        Justified ops (ths k) (callsOf k a) uid cid sc := by
  obtain ⟨uid, cid, sc, tok, _, h1, h2, h3, ⟨k, i, a, b, h4, h5⟩, _⟩ :=
    C82_reference_store hth hg (users := (setupOf key ops).users)
      (clients := (setupOf key ops).store.clients) hr hp hj h
  refine ⟨uid, cid, sc, h1, h2, h3, k, i, a, b, h4, entitled_justified hl hr (i := k) (fun e he => ?_) h5⟩
  rw [h4]
  exact List.mem_append_left _ (mem_callsOf.1 he)

/-! ## A deployment that meets the hypotheses -/

/-- A store that was cleared once; the client is registered twice and allowed the password grant. -/
def refOps : List SetupOp :=
  [.createUser b!"x" b!"y", .createClient 0 b!"client" b!"oldest" b!"https://old/", .clearAll, .createUser b!"u" b!"p",
   .createClient 0 b!"client" b!"old" b!"https://old/", .createClient 0 b!"client" b!"secret" b!"https://app/cb",
   .createClient 0 b!"other" b!"secret2" b!"https://other/", .allow 2 Grant.typePassword, .clearAuthData]

def refStart : StoreState := (setupOf b!"key" refOps).store

/-- An authorization request that must not ask the user. -/
def silentReq : Req := { Sample.consentReq with
  query := [(b!"client_id", b!"client"), (b!"redirect_uri", b!"https://app/cb"), (b!"response_type", b!"code"),
    (b!"scope", b!"openid"), (b!"prompt", b!"none")] }

def refThreads : Nat → Prog Unit
  | 0 => Sample.closed (handleRequest Policy.default Sample.lib silentReq) id
  | 1 => handler Sample.tokenCfg Sample.lib (Sample.post Sample.passwordBody)
  | 2 => Sample.closed (validate Sample.protectorCfg Sample.lib Sample.bearerReq) (·.1)
  | _ => .ret ()

def refEndpoints : Nat → Thread
  | 0 => ⟨handleRequest Policy.default Sample.lib silentReq⟩
  | 1 => ⟨handler Sample.tokenCfg Sample.lib (Sample.post Sample.passwordBody)⟩
  | 2 => ⟨validate Sample.protectorCfg Sample.lib Sample.bearerReq⟩
  | _ => ⟨(.ret () : Prog Unit)⟩

def refRun : List (Nat × Event) × (StoreState × Option Request) :=
  schedule Sample.webDet ([0, 1, 0, 1] ++ List.replicate 20 0 ++ List.replicate 20 1 ++ List.replicate 20 2) refThreads
    (refStart, none)

theorem ref_interleaves : Interleaves refEndpoints refRun.1 := by
  intro i
  have h := schedule_interleaves Sample.webDet
    ([0, 1, 0, 1] ++ List.replicate 20 0 ++ List.replicate 20 1 ++ List.replicate 20 2) refThreads (refStart, none) i
  match i with
  | 0 => exact Sample.closed_steps h
  | 1 => exact h
  | 2 => exact Sample.closed_steps h
  | _ + 3 => exact h

-- everybody is served: the silent request is sent back, the password request granted, the token admitted
example : Interleaves refEndpoints refRun.1 ∧ StoreRun refStart (refRun.1.map (·.2)) refRun.2.1 ∧ refOps.length < 2 ^ 63 ∧
    (∀ i, Endpoint (refEndpoints i)) ∧ refRun.2.1.infoIdPod < 2 ^ 63 ∧
    (∃ resp, (0, wrote resp) ∈ refRun.1 ∧ resp.status = 302) ∧ (∃ resp, (1, wrote resp) ∈ refRun.1 ∧ resp.status = 200) ∧
    ∃ r', Runs (validate Sample.protectorCfg Sample.lib Sample.bearerReq) (callsOf 2 refRun.1) (.ok (true, r')) := by
  refine ⟨ref_interleaves, Sample.web_store (s' := refRun.2) (schedule_chain Sample.webDet_step _ refThreads (refStart, none)),
    by decide, fun i => ?_, by decide +kernel, answered_mem (by decide +kernel), answered_mem (by decide +kernel), ?_⟩
  · match i with
    | 0 => exact .authorize
    | 1 => exact .token sample_allBuiltIn
    | 2 => exact .protect
    | _ + 3 => exact .idle
  · have h := Sample.remaining_runs Sample.webDet
      ([0, 1, 0, 1] ++ List.replicate 20 0 ++ List.replicate 20 1 ++ List.replicate 20 2) refThreads (refStart, none) 2
      (Sample.over_runs (by decide +kernel))
    rw [List.append_nil] at h
    obtain ⟨⟨b, r'⟩, h1, h2⟩ := Sample.closed_runs h
    dsimp only at h2
    subst h2
    exact ⟨r', h1⟩

-- what the history registers
example : RegisteredClient refOps 2 0 b!"client" b!"secret" b!"https://app/cb" ∧ GrantAllowed refOps 2 Grant.typePassword ∧
    RegisteredUser refOps b!"u" b!"p" 0 :=
  ⟨⟨refOps.take 5, refOps.drop 6, rfl, rfl, by decide, fun o s u h => by simp [refOps] at h⟩,
    ⟨refOps.take 7, refOps.drop 8, rfl, by decide⟩, ⟨refOps.take 3, refOps.drop 4, rfl, by decide, by decide⟩⟩

-- two users (C93_user_ids)
example : (0 : Int64).toInt = usersAfter 0 [] ∧ .clearAll ∉ [SetupOp.clearAuthData] ∧
    (1 : Int64).toInt = usersAfter 0 ([] ++ .createUser b!"u" b!"p" :: [.clearAuthData]) := by decide

end Goidc.Props
