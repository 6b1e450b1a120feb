import Verif.Lemmas.SimR
import Verif.Props.Secrets
import Verif.Props.CodeGrant
import Verif.Lemmas.TokenPhases
import Verif.Spec.Insensitive

/-! # What the token endpoint does not look at: C11 (the lifetime of a code), C03 (grant types, with an assertion) -/

namespace Goidc.Props

open Spec TokenEndpoint

variable {cfg : TokenCfg} {lib : Lib} {r : Req} {t : List Event} {o : Outcome Unit} {f : Event → Event}

/-- The calls the token endpoint makes around client authentication are left alone. -/
structure Plain (f : Event → Event) : Prop where
  log : ∀ l x, f ⟨.log l, x⟩ = ⟨.log l, x⟩
  write : ∀ w x, f ⟨.write w, x⟩ = ⟨.write w, x⟩
  now : ∀ x, f ⟨.now, x⟩ = ⟨.now, x⟩

theorem simR_logWrite (hp : Plain f) {lv gt ev ps} {resp : HttpResp} :
    SimR f Eq (tlog lv gt ev ps >>= fun _ => respond resp) (tlog lv gt ev ps >>= fun _ => respond resp) :=
  simR_refl (allQ_bind (allQ_tlog hp.log) fun _ => allQ_ask (hp.write _))

theorem simR_execute (hp : Plain f) {c c' : Client} {gt : GoStr} {h : GrantFunc} (hid : c.id = c'.id)
    (hg : ∀ now, SimR f (ExceptRel Eq) (h r c now).run (h r c' now).run) :
    SimR f Eq (executeGrantHandler cfg r c gt h) (executeGrantHandler cfg r c' gt h) := by
  unfold executeGrantHandler
  refine simR_same (allQ_ask hp.now) fun now => simR_bind (hg now) fun a b hab => ?_
  rw [exceptRel_eq] at hab
  subst hab
  unfold pClient
  rw [hid]
  cases a with
  | error e => exact simR_refl (allQ_ask (hp.write _))
  | ok a => exact simR_logWrite hp

theorem simR_handler (hp : Plain f) (hb : AllBuiltIn lib cfg)
    (hsec : ∀ cid sec b, findClientCredential cfg r = some (cid, sec, b) → ∀ gt h, BuiltIn lib h →
      SimR f Eq (validateClientBySecret cfg r gt cid sec b >>= fun c =>
          match c with | some client => executeGrantHandler cfg r client gt h | none => pure ())
        (validateClientBySecret cfg r gt cid sec b >>= fun c =>
          match c with | some client => executeGrantHandler cfg r client gt h | none => pure ()))
    (hass : ∀ ca, PresentedAssertion r ca → ∀ gt h, BuiltIn lib h →
      SimR f Eq (validateClientByAssertion cfg lib gt ca >>= fun c =>
          match c with | some client => executeGrantHandler cfg r client gt h | none => pure ())
        (validateClientByAssertion cfg lib gt ca >>= fun c =>
          match c with | some client => executeGrantHandler cfg r client gt h | none => pure ())) :
    SimR f Eq (handler cfg lib r) (handler cfg lib r) := by
  unfold handler
  split
  · exact simR_logWrite hp
  · dsimp only
    split
    · exact simR_logWrite hp
    · split
      · exact simR_logWrite hp
      · rename_i hh
        have hbi := hb _ _ hh
        split
        · rename_i hc
          exact hsec _ _ _ hc _ _ hbi
        · split
          · rename_i ca hca
            refine hass _ (findClientAssertion_iff.1 ?_) _ _ hbi
            split at hca
            · exact hca
            · cases hca
          · exact simR_logWrite hp

/-! ## C11 -/

variable {cr lt : Int64}

theorem lifetime_id {q : Query} (h1 : ∀ c, q ≠ .findAuthSessionByCode c) (h2 : ∀ s, q ≠ .disableSession s) :
    ∀ x, withLifetime cr lt ⟨q, x⟩ = ⟨q, x⟩ := by
  intro x
  cases q <;> first | rfl | exact absurd rfl (h1 _) | exact absurd rfl (h2 _)

theorem simR_logThrow {α β : Type} {R : α → β → Prop} (hl : ∀ l x, f ⟨.log l, x⟩ = ⟨.log l, x⟩) {lv gt ev ps}
    {e : OAuthError} : SimR f (ExceptRel R) (do glog lv gt ev ps; throw e : GrantM α).run
      (do glog lv gt ev ps; throw e : GrantM β).run :=
  simR_xsame (allQ_glog hl) fun _ => ⟨_, rfl, rfl⟩

theorem simR_onErr {α β : Type} {R : α → β → Prop} (hl : ∀ l x, f ⟨.log l, x⟩ = ⟨.log l, x⟩) {gt : GoStr} {s : Site}
    {e : ErrType} : SimR f (ExceptRel R) (onErr gt s e : GrantM α).run (onErr gt s e : GrantM β).run := by
  cases e <;> exact simR_logThrow hl

/-- The sessions of codes are replaced by others with the same authorization, redirect URI and data for the ID
token, and everything else is left alone. -/
structure Resessions (f : Event → Event) (m : AuthSession → AuthSession) : Prop where
  found : ∀ c s e, f ⟨.findAuthSessionByCode c, (some s, e)⟩ = ⟨.findAuthSessionByCode c, (some (m s), e)⟩
  nothing : ∀ c e, f ⟨.findAuthSessionByCode c, (none, e)⟩ = ⟨.findAuthSessionByCode c, (none, e)⟩
  disable : ∀ s x, f ⟨.disableSession s, x⟩ = ⟨.disableSession (m s), x⟩
  other : ∀ q, (∀ c, q ≠ .findAuthSessionByCode c) → (∀ s, q ≠ .disableSession s) → (∀ r, q ≠ .showLoginScreen r) →
    (∀ c r, q ≠ .showConsentScreen c r) → q ≠ .continue_ → (∀ i s, q ≠ .createAuthSession i s) → ∀ x, f ⟨q, x⟩ = ⟨q, x⟩
  authId : ∀ s, (m s).authId = s.authId
  redirectURI : ∀ s, (m s).redirectURI = s.redirectURI
  nonce : ∀ s, (m s).nonce = s.nonce
  idTokenExpiresIn : ∀ s, (m s).idTokenExpiresIn = s.idTokenExpiresIn
  authTime : ∀ s, (m s).authTime = s.authTime

theorem simR_code {m : AuthSession → AuthSession} (hf : Resessions f m) (hpk : ∀ c s, Grant.checkPkce lib r c (m s) = Grant.checkPkce lib r c s)
    {c : Client} {now : Int64} :
    SimR f (ExceptRel Eq) (Grant.authorizationCode lib r c now).run
      (Grant.authorizationCode lib r c now).run := by
  have hl : ∀ l : LogLine, ∀ x, f ⟨.log l, x⟩ = ⟨.log l, x⟩ := fun _ => hf.other _ (by simp) (by simp) (by simp) (by simp) (by simp) (by simp)
  unfold Grant.authorizationCode
  refine simR_xsame (allQ_needParam hl) fun uri => simR_xsame (allQ_needParam hl) fun code => ?_
  refine simR_xbind (R := fun a b => (∃ s e, a = (some s, e) ∧ b = (some (m s), e)) ∨
    ∃ e, a = (none, e) ∧ b = (none, e)) ?_ fun a b hab => ?_
  · intro x
    obtain ⟨s, e⟩ := x
    cases s with
    | none => exact ⟨_, _, (none, e), rfl, hf.nothing _ _, _, rfl, .inr ⟨e, rfl, rfl⟩⟩
    | some s => exact ⟨_, _, (some (m s), e), rfl, hf.found _ _ _, _, rfl, .inl ⟨s, e, rfl, rfl⟩⟩
  · refine simR_xbind (R := fun s s' => s' = m s) ?_ fun s s' hs => ?_
    · rcases hab with ⟨s, e, rfl, rfl⟩ | ⟨e, rfl, rfl⟩
      · cases e with
        | none => exact ⟨_, rfl, rfl⟩
        | some e => exact simR_onErr hl
      · cases e with
        | none => exact simR_logThrow hl
        | some e => exact simR_onErr hl
    · subst hs
      have ha : gask (.findActiveAuthInfoById (m s).authId) = gask (.findActiveAuthInfoById s.authId) := by rw [hf.authId]
      rw [ha]
      refine simR_xsame (p := gask (.findActiveAuthInfoById s.authId)) (allQ_gask (hf.other _ (by simp) (by simp) (by simp) (by simp) (by simp) (by simp))) fun i =>
        simR_xsame (allQ_checkVal hl) fun info => ?_
      by_cases h1 : info.clientId ≠ c.id
      · rw [if_pos h1, if_pos h1]
        exact simR_logThrow hl
      rw [if_neg h1, if_neg h1]
      by_cases h2 : s.redirectURI ≠ uri
      · rw [if_pos h2, if_pos (show (m s).redirectURI ≠ uri by rwa [hf.redirectURI])]
        exact simR_logThrow hl
      rw [if_neg h2, if_neg (show ¬ (m s).redirectURI ≠ uri by rwa [hf.redirectURI])]
      rw [hpk]
      refine simR_xsame (p := Grant.checkPkce lib r c s) (allQ_checkPkce hl) fun _ =>
        simR_xsame (allQ_gask (hf.other _ (by simp) (by simp) (by simp) (by simp) (by simp) (by simp))) fun tk => simR_xsame (allQ_checkVal hl) fun token =>
        simR_xbind (R := Eq) ?_ fun d d' hd => ?_
      · exact fun x => ⟨.disableSession (m s), _, x, rfl, hf.disable _ _, .ok x, rfl, rfl⟩
      · subst hd
        have hat : Grant.attachIdToken lib c info (m s) now (Grant.mkResponse token info.scope) =
            Grant.attachIdToken lib c info s now (Grant.mkResponse token info.scope) := by
          unfold Grant.attachIdToken
          rw [hf.nonce, hf.idTokenExpiresIn, hf.authTime]
        rw [hat]
        exact simR_xsame (allQ_checkErr hl) fun _ =>
          simR_xrefl (p := Grant.attachIdToken lib c info s now (Grant.mkResponse token info.scope))
            (allQ_attachIdToken hl (hf.other _ (by simp) (by simp) (by simp) (by simp) (by simp) (by simp)))

/-- Every run remains one when the sessions of codes are replaced by others of no consequence. -/
theorem resession_runs {m : AuthSession → AuthSession} (hf : Resessions f m)
    (hpk : ∀ c s, Grant.checkPkce lib r c (m s) = Grant.checkPkce lib r c s) (hb : AllBuiltIn lib cfg)
    (h : Runs (handler cfg lib r) t o) : Runs (handler cfg lib r) (t.map f) o := by
  have one : ∀ q, PhaseOne q → ∀ x, f ⟨q, x⟩ = ⟨q, x⟩ := by
    intro q hq
    refine hf.other q ?_ ?_ ?_ ?_ ?_ ?_
    all_goals (intros; rintro rfl; revert hq; simp [PhaseOne, IsAuthCall, Query.isLog, Query.isWrite])
  have ho : ∀ q, (∀ c, q ≠ .findAuthSessionByCode c) → (∀ s, q ≠ .disableSession s) → (∀ r, q ≠ .showLoginScreen r) →
    (∀ c r, q ≠ .showConsentScreen c r) → q ≠ .continue_ → (∀ i s, q ≠ .createAuthSession i s) → ∀ x, f ⟨q, x⟩ = ⟨q, x⟩ := hf.other
  have plain : Plain f := ⟨fun _ => ho _ (by simp) (by simp) (by simp) (by simp) (by simp) (by simp),
    fun _ => ho _ (by simp) (by simp) (by simp) (by simp) (by simp) (by simp),
    ho _ (by simp) (by simp) (by simp) (by simp) (by simp) (by simp)⟩
  have hg : ∀ {h c}, BuiltIn lib h → ∀ now, SimR f (ExceptRel Eq) (h r c now).run (h r c now).run := by
    intro h c hb now
    have hl : ∀ l : LogLine, ∀ x, f ⟨.log l, x⟩ = ⟨.log l, x⟩ := plain.log
    cases hb with
    | authorizationCode => exact simR_code hf hpk
    | refreshToken => exact simR_xrefl (Grant.allQ_refreshToken hl (fun _ => ho _ (by simp) (by simp) (by simp) (by simp) (by simp) (by simp)) (fun _ => ho _ (by simp) (by simp) (by simp) (by simp) (by simp) (by simp)) fun _ _ => ho _ (by simp) (by simp) (by simp) (by simp) (by simp) (by simp))
    | password => exact simR_xrefl (Grant.allQ_password hl (fun _ _ => ho _ (by simp) (by simp) (by simp) (by simp) (by simp) (by simp)) (fun _ _ _ => ho _ (by simp) (by simp) (by simp) (by simp) (by simp) (by simp)) fun _ => ho _ (by simp) (by simp) (by simp) (by simp) (by simp) (by simp))
    | clientCredentials => exact simR_xrefl (Grant.allQ_clientCredentials hl (fun _ _ _ => ho _ (by simp) (by simp) (by simp) (by simp) (by simp) (by simp)) fun _ => ho _ (by simp) (by simp) (by simp) (by simp) (by simp) (by simp))
    | jwt => exact simR_xrefl (Grant.allQ_jwt hl (ho _ (by simp) (by simp) (by simp) (by simp) (by simp) (by simp)) (ho _ (by simp) (by simp) (by simp) (by simp) (by simp) (by simp)) (fun _ => ho _ (by simp) (by simp) (by simp) (by simp) (by simp) (by simp)) (fun _ _ _ => ho _ (by simp) (by simp) (by simp) (by simp) (by simp) (by simp))
            (fun _ _ _ => ho _ (by simp) (by simp) (by simp) (by simp) (by simp) (by simp)) fun _ => ho _ (by simp) (by simp) (by simp) (by simp) (by simp) (by simp))
  refine simR_runs_eq (simR_handler plain hb ?_ ?_) h
  · intro cid sec b _ gt h hbi
    refine simR_same (allQ_mono one phaseOne_bySecret) fun c => ?_
    cases c with
    | none => exact ⟨_, rfl, rfl⟩
    | some c => exact simR_execute plain rfl (hg hbi)
  · intro ca _ gt h hbi
    refine simR_same (allQ_mono one phaseOne_byAssertion) fun c => ?_
    cases c with
    | none => exact ⟨_, rfl, rfl⟩
    | some c => exact simR_execute plain rfl (hg hbi)

/-- C11, what the code does instead: the time of creation and the lifetime of the session of a code are
never looked at.  Every run of the token endpoint - accepted or refused, logged or not, successful or not -
remains one, with the same outcome, the same response and the same log, when they are replaced by any others;
so a code that has expired is worth exactly what a fresh one is. -/
theorem C11_lifetime_ignored (cr lt : Int64) (hb : AllBuiltIn lib cfg) (h : Runs (handler cfg lib r) t o) :
    Runs (handler cfg lib r) (t.map (withLifetime cr lt)) o :=
  resession_runs (m := relifed cr lt) ⟨fun _ _ _ => rfl, fun _ _ => rfl, fun _ _ => rfl,
    fun _ h1 h2 _ _ _ _ => lifetime_id h1 h2, fun _ => rfl, fun _ => rfl, fun _ => rfl, fun _ => rfl, fun _ => rfl⟩
    (fun _ _ => rfl) hb h

/-- A code grant with a session that expires immediately after its creation, long ago. -/
example : ({ session := (some (relifed 0 0 Sample.session), none) } : Sample.World).status
    (handler Sample.tokenCfg Sample.lib (Sample.post Sample.codeBody)) = some 200 := by decide +kernel

/-! ## C03 -/

variable {g : GoStr → Bool}

theorem grantTypes_plain : Plain (withGrantTypes g) := ⟨fun _ _ => rfl, fun _ _ => rfl, fun _ => rfl⟩

theorem grantTypes_id {q : Query} (h1 : ∀ c, q ≠ .findClientById c) : ∀ x, withGrantTypes g ⟨q, x⟩ = ⟨q, x⟩ := by
  intro x
  cases q <;> first | rfl | exact absurd rfl (h1 _)

/-- The same client as far as anything but its grant types is concerned. -/
def Regranted (g : GoStr → Bool) (c c' : Option Client) : Prop := c' = c.map fun c => { c with canUseGrantType := g }

/-- The same answer of the key function, and the same client but for its grant types. -/
def KeyRel (g : GoStr → Bool) (a b : Jwt.KeyRes × Option Client) : Prop := a.1 = b.1 ∧ Regranted g a.2 b.2

theorem simR_keyFunc {gt ca : GoStr} {tk : JwtToken} :
    SimR (withGrantTypes g) (KeyRel g) (assertionKeyFunc gt ca tk)
      (assertionKeyFunc gt ca tk) := by
  have hl : ∀ l : LogLine, ∀ x, withGrantTypes g ⟨.log l, x⟩ = ⟨.log l, x⟩ := fun _ _ => rfl
  have rs : ∀ {k c c' lv gt ev ps}, Regranted g c c' → SimR (withGrantTypes g) (KeyRel g)
      (tlog lv gt ev ps >>= fun _ => pure (k, c)) (tlog lv gt ev ps >>= fun _ => pure (k, c')) :=
    fun h => simR_same (allQ_tlog hl) fun _ => ⟨_, rfl, rfl, h⟩
  unfold assertionKeyFunc
  split
  · exact rs rfl
  · refine simR_bind (R := fun a b => a.2 = b.2 ∧ Regranted g a.1 b.1) ?_ fun a b hab => ?_
    · intro x
      obtain ⟨c, e⟩ := x
      cases c with
      | none => exact ⟨_, _, (none, e), rfl, rfl, (none, e), rfl, rfl, rfl⟩
      | some c => exact ⟨_, _, (some { c with canUseGrantType := g }, e), rfl, rfl,
          (some { c with canUseGrantType := g }, e), rfl, rfl, rfl⟩
    · obtain ⟨c, e⟩ := a
      obtain ⟨c', e'⟩ := b
      obtain ⟨he, hc⟩ := hab
      dsimp only at he hc
      subst he
      rcases e with _ | e
      · unfold Regranted at hc
        subst hc
        cases c with
        | none => exact rs rfl
        | some c =>
          dsimp only [Option.map]
          split
          · exact rs rfl
          · exact ⟨_, rfl, rfl, rfl⟩
      · cases e <;> exact rs hc

theorem simR_parse {s : GoStr} {kf : JwtToken → Prog (Jwt.KeyRes × Option Client)}
    (h : ∀ t, SimR (withGrantTypes g) (KeyRel g) (kf t) (kf t)) :
    SimR (withGrantTypes g) (fun a b => a.1 = b.1 ∧ a.2.1 = b.2.1 ∧ Regranted g a.2.2 b.2.2) (Jwt.parse lib s none kf)
      (Jwt.parse lib s none kf) := by
  unfold Jwt.parse
  split
  · exact ⟨_, rfl, rfl, rfl, rfl⟩
  · split
    · exact ⟨_, rfl, rfl, rfl, rfl⟩
    · refine simR_bind (h _) fun a b ⟨h1, h2⟩ => ?_
      obtain ⟨k, c⟩ := a
      obtain ⟨k', c'⟩ := b
      dsimp only at h1 h2
      subst h1
      cases k with
      | oauthErr e => exact ⟨_, rfl, rfl, rfl, h2⟩
      | err => exact ⟨_, rfl, rfl, rfl, h2⟩
      | key k => exact simR_same (allQ_ask fun _ => rfl) fun _ => ⟨_, rfl, rfl, rfl, h2⟩

theorem handle_regranted {a gt : GoStr} {c c' : Option Client} {tk e} (h : Regranted g c c') :
    Assertion.handle a gt c' tk e = Assertion.handle a gt c tk e := by
  unfold Regranted at h
  subst h
  cases c <;> rfl

theorem simR_byAssertion {gt ca : GoStr} : SimR (withGrantTypes g) (Regranted g) (validateClientByAssertion cfg lib gt ca)
    (validateClientByAssertion cfg lib gt ca) := by
  have hl : ∀ l : LogLine, ∀ x, withGrantTypes g ⟨.log l, x⟩ = ⟨.log l, x⟩ := fun _ _ => rfl
  unfold validateClientByAssertion
  refine simR_bind (simR_parse fun _ => simR_keyFunc) fun a b ⟨h1, h2, h3⟩ => ?_
  obtain ⟨tk, e, c⟩ := a
  obtain ⟨tk', e', c'⟩ := b
  dsimp only at h1 h2 h3
  subst h1 h2
  dsimp only
  rw [handle_regranted h3]
  refine simR_same (allQ_handle hl (fun _ => rfl) fun _ _ _ _ _ _ => rfl) fun res => ?_
  cases res with
  | error e => exact simR_same (allQ_ask fun _ => rfl) fun _ => ⟨_, rfl, rfl⟩
  | ok u =>
    unfold Regranted at h3
    subst h3
    cases c with
    | none => rfl
    | some c => exact ⟨_, rfl, rfl⟩

theorem grant_regranted {h : GrantFunc} (hb : BuiltIn lib h) (c : Client) (now : Int64) :
    h r { c with canUseGrantType := g } now = h r c now := by
  cases hb <;> rfl

/-- C03, what the code does instead with client assertions: what `CanUseGrantType` says of a client that presents no
secret is never looked at.  Every run remains one, with the same outcome, response and log, when the answer is
replaced by any other, for every grant type. -/
theorem C03_assertion_unchecked (g : GoStr → Bool) (hb : AllBuiltIn lib cfg)
    (hn : ∀ cid sec b, ¬ Presented cfg.acceptance r cid sec b) (h : Runs (handler cfg lib r) t o) :
    Runs (handler cfg lib r) (t.map (withGrantTypes g)) o := by
  refine simR_runs_eq (simR_handler grantTypes_plain hb ?_ ?_) h
  · intro cid sec b hc
    exact absurd (findClientCredential_iff.1 hc) (hn _ _ _)
  · intro ca _ gt h hbi
    refine simR_bind simR_byAssertion fun c c' hc => ?_
    unfold Regranted at hc
    subst hc
    cases c with
    | none => exact ⟨_, rfl, rfl⟩
    | some c =>
      refine simR_execute grantTypes_plain rfl fun now => ?_
      rw [grant_regranted hbi]
      have hl : ∀ l : LogLine, ∀ x, withGrantTypes g ⟨.log l, x⟩ = ⟨.log l, x⟩ := fun _ _ => rfl
      cases hbi with
      | authorizationCode => exact simR_xrefl (Grant.allQ_authorizationCode hl (fun _ => rfl) (fun _ _ => rfl) (fun _ _ => rfl)
            (fun _ _ => rfl) fun _ _ => rfl)
      | refreshToken => exact simR_xrefl (Grant.allQ_refreshToken hl (fun _ _ => rfl) (fun _ _ => rfl) fun _ _ _ => rfl)
      | password => exact simR_xrefl (Grant.allQ_password hl (fun _ _ _ => rfl) (fun _ _ _ _ => rfl) fun _ _ => rfl)
      | clientCredentials => exact simR_xrefl (Grant.allQ_clientCredentials hl (fun _ _ _ _ => rfl) fun _ _ => rfl)
      | jwt => exact simR_xrefl (Grant.allQ_jwt hl (fun _ => rfl) (fun _ => rfl) (fun _ _ => rfl) (fun _ _ _ _ => rfl)
              (fun _ _ _ _ => rfl) fun _ _ => rfl)

/-- A request without a secret, granted to a client that may use no grant type at all. -/
example : (∀ cid sec b, ¬ Presented Sample.tokenCfg.acceptance (Sample.postAssertion b!"tok" Sample.ccBody) cid sec b) ∧
    ({ client := (some { Sample.client with canUseGrantType := fun _ => false }, none) } : Sample.World).status
      (handler Sample.tokenCfg Sample.lib (Sample.postAssertion b!"tok" Sample.ccBody)) = some 200 :=
  ⟨findClientCredential_none.1 (by decide +kernel), by decide +kernel⟩

/-! ## C63 -/

variable {w : Int64}

theorem clock_plain : Plain (withClock w) := ⟨fun _ _ => rfl, fun _ _ => rfl, fun _ => rfl⟩

theorem clock_id {q : Query} (h1 : q ≠ .wallNow) : ∀ x, withClock w ⟨q, x⟩ = ⟨q, x⟩ := by
  intro x
  cases q <;> first | rfl | exact absurd rfl h1

theorem simR_parse_clock {σ : Type} {s : GoStr} {s0 : σ} {kf : JwtToken → Prog (Jwt.KeyRes × σ)}
    (hu : ∀ tk, lib.jwtDecode s = some tk → Undated tk)
    (h : ∀ t, AllQ (fun q => ∀ x, withClock w ⟨q, x⟩ = ⟨q, x⟩) (kf t)) :
    SimR (withClock w) Eq (Jwt.parse lib s s0 kf) (Jwt.parse lib s s0 kf) := by
  unfold Jwt.parse
  split
  · exact ⟨_, rfl, rfl⟩
  · rename_i tk htk
    have hd := hu tk htk
    have e1 : ∀ now, Jwt.expOk now (tk.claim b!"exp") = true := fun now => expOk_iff.2 fun v hv =>
      ⟨0, hd _ (by simp) v hv, .inl rfl⟩
    have e2 : ∀ now, Jwt.notBeforeOk now (tk.claim b!"iat") = true := fun now => notBeforeOk_iff.2 fun v hv =>
      ⟨0, hd _ (by simp) v hv, .inl rfl⟩
    have e3 : ∀ now, Jwt.notBeforeOk now (tk.claim b!"nbf") = true := fun now => notBeforeOk_iff.2 fun v hv =>
      ⟨0, hd _ (by simp) v hv, .inl rfl⟩
    split
    · exact ⟨_, rfl, rfl⟩
    · refine simR_same (h _) fun a => ?_
      obtain ⟨k, c⟩ := a
      cases k with
      | oauthErr e => exact ⟨_, rfl, rfl⟩
      | err => exact ⟨_, rfl, rfl⟩
      | key k =>
        dsimp only
        simp only [e1, e2, e3]
        intro x
        exact ⟨_, _, w, rfl, rfl, _, rfl, rfl⟩

theorem simR_jwt_clock {c : Client} {now : Int64} (hu : ∀ tk, lib.jwtDecode (r.formValue b!"assertion") = some tk → Undated tk) :
    SimR (withClock w) (ExceptRel Eq) (Grant.jwt lib r c now).run (Grant.jwt lib r c now).run := by
  have hl : ∀ l : LogLine, ∀ x, withClock w ⟨.log l, x⟩ = ⟨.log l, x⟩ := fun _ _ => rfl
  unfold Grant.jwt
  dsimp only
  refine simR_xbind (R := fun a b => a = b ∧ a = r.formValue b!"assertion") ?_ fun a b hab => ?_
  · unfold Grant.needParam
    dsimp only
    split
    · exact simR_xsame (allQ_glog hl) fun _ => ⟨_, rfl, rfl⟩
    · exact ⟨_, rfl, rfl, rfl⟩
  · obtain ⟨rfl, rfl⟩ := hab
    refine simR_xbind (R := Eq) ?_ fun p _ hp => ?_
    · refine simR_bind (simR_parse_clock hu fun t => ?_) fun a b hab => ⟨_, rfl, hab⟩
      unfold Grant.jwtKeyFunc; split <;> trivial
    · subst hp
      refine simR_xrefl ?_
      refine allQ_xbind (allQ_handle hl (fun _ => rfl) fun j i x cl hc => fun _ => rfl) fun _ => ?_
      split
      · trivial
      · split
        · exact allQ_log_throw hl
        · exact allQ_xbind (allQ_gask (fun _ => rfl)) fun _ => allQ_xbind (allQ_checkErr hl) fun _ =>
            allQ_xbind (allQ_checkScope hl) fun _ =>
            allQ_issue hl (fun _ => rfl) fun _ _ => rfl

/-- How far C63_false reaches: an assertion whose times are 0 or absent is worth the same at any time.  If the assertions of a
request - the one it is authenticated by and the one it presents as a grant - are of that kind, every run of the token
endpoint remains one, with the same outcome, response and log, when the JWT library's clock shows any other time. -/
theorem C63_undated (w : Int64) (hb : AllBuiltIn lib cfg)
    (hg : ∀ tk, lib.jwtDecode (r.formValue b!"assertion") = some tk → Undated tk)
    (hc : ∀ ca tk, PresentedAssertion r ca → lib.jwtDecode ca = some tk → Undated tk)
    (h : Runs (handler cfg lib r) t o) : Runs (handler cfg lib r) (t.map (withClock w)) o := by
  have hl : ∀ l : LogLine, ∀ x, withClock w ⟨.log l, x⟩ = ⟨.log l, x⟩ := fun _ _ => rfl
  have hgr : ∀ {h c}, BuiltIn lib h → ∀ now, SimR (withClock w) (ExceptRel Eq) (h r c now).run (h r c now).run := by
    intro h c hb now
    cases hb with
    | authorizationCode => exact simR_xrefl (Grant.allQ_authorizationCode hl (fun _ => rfl) (fun _ _ => rfl) (fun _ _ => rfl)
          (fun _ _ => rfl) fun _ _ => rfl)
    | refreshToken => exact simR_xrefl (Grant.allQ_refreshToken hl (fun _ _ => rfl) (fun _ _ => rfl) fun _ _ _ => rfl)
    | password => exact simR_xrefl (Grant.allQ_password hl (fun _ _ _ => rfl) (fun _ _ _ _ => rfl) fun _ _ => rfl)
    | clientCredentials => exact simR_xrefl (Grant.allQ_clientCredentials hl (fun _ _ _ _ => rfl) fun _ _ => rfl)
    | jwt => exact simR_jwt_clock hg
  refine simR_runs_eq (simR_handler clock_plain hb ?_ ?_) h
  · intro cid sec b _ gt h hbi
    refine simR_same (allQ_bySecret hl (fun _ _ => rfl) fun _ _ => rfl) fun c => ?_
    cases c with
    | none => exact ⟨_, rfl, rfl⟩
    | some c => exact simR_execute clock_plain rfl (hgr hbi)
  · intro ca hca gt h hbi
    have hv : SimR (withClock w) Eq (validateClientByAssertion cfg lib gt ca) (validateClientByAssertion cfg lib gt ca) := by
      unfold validateClientByAssertion
      refine simR_bind (simR_parse_clock (fun tk htk => hc ca tk hca htk) fun _ => allQ_assertionKeyFunc hl fun _ _ => rfl)
        fun p _ hp => ?_
      subst hp
      refine simR_refl (allQ_bind (allQ_handle hl (fun _ => rfl) fun _ _ _ _ _ => fun _ => rfl) fun res => ?_)
      cases res with
      | error e => exact allQ_bind (allQ_ask fun _ => rfl) fun _ => trivial
      | ok u => dsimp only; split <;> trivial
    refine simR_bind hv fun c _ hcc => ?_
    subst hcc
    cases c with
    | none => exact ⟨_, rfl, rfl⟩
    | some c => exact simR_execute clock_plain rfl (hgr hbi)

end Goidc.Props
