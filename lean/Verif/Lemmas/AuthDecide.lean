import Verif.Lemmas.Jwt
import Verif.Lemmas.AuthDecision

/-! # Proof of the decision table of the authorization endpoint: issuing and deciding -/

namespace Goidc

open Spec AuthzEndpoint Props

variable {α β : Type} {lib : Lib} {policy : Policy} {r : Req} {clnt : Client} {req : Request} {info : Option AuthInfo}
  {f : Flow}

/-! ## Issuing -/

theorem hash_none {alg tok : GoStr} : IdToken.hash lib alg tok = none ↔ ¬ NamesDigest alg := by
  have hs : ∀ {s suf : GoStr}, hasSuffix s suf = true ↔ ∃ p, s = p ++ suf := by
    intro s suf
    constructor
    · exact hasSuffix_split
    · rintro ⟨p, rfl⟩
      unfold hasSuffix
      simp
  have hn : NamesDigest alg ↔ hasSuffix alg b!"256" = true ∨ hasSuffix alg b!"384" = true ∨ hasSuffix alg b!"512" = true := by
    rw [hs, hs, hs]
    unfold NamesDigest
    constructor
    · rintro ⟨p, h | h | h⟩
      · exact .inl ⟨p, h⟩
      · exact .inr (.inl ⟨p, h⟩)
      · exact .inr (.inr ⟨p, h⟩)
    · rintro (⟨p, h⟩ | ⟨p, h⟩ | ⟨p, h⟩)
      · exact ⟨p, .inl h⟩
      · exact ⟨p, .inr (.inl h)⟩
      · exact ⟨p, .inr (.inr h)⟩
  rw [hn]
  unfold IdToken.hash
  cases hasSuffix alg b!"256" <;> cases hasSuffix alg b!"384" <;> cases hasSuffix alg b!"512" <;> simp

theorem signed_none {alg kid claims} {key : Option Key} : Jwt.signed lib alg kid claims key = none ↔ ¬ KeyFits lib alg key := by
  unfold Jwt.signed KeyFits
  cases key with
  | none => simp
  | some k => cases k <;> simp [← family_hmac, ← family_rsa, ← family_ecdsa, ← family_noneAlg]

theorem keyFits_family {alg} {key : Option Key} (h : KeyFits lib alg key) : Jwt.family alg ≠ none := by
  intro h0
  cases key with
  | none => exact h
  | some k => cases k <;> simp [KeyFits, ← family_hmac, ← family_rsa, ← family_ecdsa, ← family_noneAlg, h0] at h

theorem rawGen_none {alg key kid iss aud sub nonce} {exp authTime now : Int64} {ah ch} :
    IdToken.rawGen lib alg key kid iss aud sub nonce exp authTime now ah ch = none ↔ ¬ KeyFits lib alg key := by
  unfold IdToken.rawGen
  split
  · rename_i h
    exact ⟨fun _ h' => keyFits_family h' h, fun _ => rfl⟩
  · exact signed_none

theorem genForImplicit_none {alg key kid iss aud sub nonce} {expiresIn authTime now : Int64} {atk : GoStr} :
    IdToken.genForImplicit lib alg key kid iss aud sub nonce expiresIn authTime atk now = none ↔
      ¬ (KeyFits lib alg key ∧ (atk ≠ [] → NamesDigest alg)) := by
  unfold IdToken.genForImplicit
  by_cases ha : atk = []
  · rw [if_pos ha]
    dsimp only
    rw [rawGen_none]
    simp [ha]
  · rw [if_neg ha]
    split
    · rename_i h
      simp [ha, hash_none.1 h]
    · rename_i x h
      have : NamesDigest alg := Classical.byContradiction fun hn => by rw [hash_none.2 hn] at h; cases h
      rw [rawGen_none]
      simp [this]

theorem genForHybrid_none {alg key kid iss aud sub nonce} {expiresIn authTime now : Int64} {atk code : GoStr} :
    IdToken.genForHybrid lib alg key kid iss aud sub nonce expiresIn authTime atk code now = none ↔
      ¬ (KeyFits lib alg key ∧ NamesDigest alg) := by
  unfold IdToken.genForHybrid
  by_cases hn : NamesDigest alg
  · have h1 : ∀ tok, ∃ h, IdToken.hash lib alg tok = some h := by
      intro tok
      cases hh : IdToken.hash lib alg tok with
      | none => exact absurd hn (hash_none.1 hh)
      | some h => exact ⟨h, rfl⟩
    obtain ⟨h2, h2'⟩ := h1 atk
    obtain ⟨h3, h3'⟩ := h1 code
    rw [h2', h3']
    by_cases ha : atk = []
    · rw [if_pos ha]; dsimp only; rw [rawGen_none]; simp [hn]
    · rw [if_neg ha]; dsimp only; rw [rawGen_none]; simp [hn]
  · simp only [hn, and_false, not_false_eq_true, iff_true]
    rw [hash_none.2 hn, hash_none.2 hn]
    by_cases ha : atk = []
    · rw [if_pos ha]
    · rw [if_neg ha]

theorem frontToken_made {key t o} (h : Runs (frontToken info f key) t o) :
    (∃ tk, o = .ok (some ((tk.map (·.accessToken)).getD [], tokenParams key tk)) ∧ TokenMade info req f (interactions t) (.inl tk)) ∨
    (o = .ok none ∧ TokenMade info req f (interactions t) (.inr (.error req.responseMode b!"server_error" []))) ∨
    (o = .panic ∧ TokenMade info req f (interactions t) (.inr .crash)) := by
  unfold frontToken at h
  by_cases hf : f.requireAccessToken = true
  · rw [if_pos hf] at h
    replace h := runs_bind_ask.1 h
    obtain ⟨ans, t1, rfl, h⟩ := h
    rcases ans with ⟨_ | tk, _ | e⟩ <;> dsimp only at h
    · obtain ⟨rfl, rfl⟩ := h
      exact .inr (.inr ⟨rfl, .nilToken hf⟩)
    · obtain ⟨rfl, rfl⟩ := h
      exact .inr (.inl ⟨rfl, .broke hf⟩)
    · obtain ⟨rfl, rfl⟩ := h
      exact .inl ⟨some tk, rfl, .made hf⟩
    · obtain ⟨rfl, rfl⟩ := h
      exact .inr (.inl ⟨rfl, .broke hf⟩)
  · rw [if_neg hf] at h
    obtain ⟨rfl, rfl⟩ := h
    exact .inl ⟨none, rfl, .notAsked (by simpa using hf)⟩

theorem frontIdToken_made {c : Option Client} {authTime : Int64} {token : Option OAuthToken} {code : Option GoStr} {t o}
    (h : Runs (frontIdToken policy lib c info f req authTime ((token.map (·.accessToken)).getD []) code) t o) :
    (∃ idt, o = .ok (some (idTokenParams idt)) ∧
      IdTokenMade policy lib c info req f authTime token code (interactions t) (.inl idt)) ∨
    (o = .ok none ∧ IdTokenMade policy lib c info req f authTime token code (interactions t)
      (.inr (.error req.responseMode b!"server_error" []))) ∨
    (o = .panic ∧ IdTokenMade policy lib c info req f authTime token code (interactions t) (.inr .crash)) := by
  unfold frontIdToken at h
  by_cases hf : f.requireIdToken = true
  · rw [if_pos hf] at h
    cases c with
    | none =>
      obtain ⟨rfl, rfl⟩ := h
      exact .inr (.inr ⟨rfl, .nilClient hf rfl⟩)
    | some c =>
      replace h := runs_bind_ask.1 h
      obtain ⟨iss, t1, rfl, h⟩ := h
      cases info with
      | none =>
        obtain ⟨rfl, rfl⟩ := h
        exact .inr (.inr ⟨rfl, .nilInfo hf rfl rfl⟩)
      | some i =>
        replace h := runs_bind_ask.1 h
        obtain ⟨now, t2, rfl, h⟩ := h
        have hats : (token.map (·.accessToken)).toList = [(token.map (·.accessToken)).getD []] ∨
            ((token.map (·.accessToken)).toList = [] ∧ (token.map (·.accessToken)).getD [] = []) := by
          cases token with
          | none => exact .inr ⟨rfl, rfl⟩
          | some tk => exact .inl rfl
        have hne : (∃ tk, token = some tk ∧ tk.accessToken ≠ []) ↔ (token.map (·.accessToken)).getD [] ≠ [] := by
          cases token <;> simp
        cases code with
        | none =>
          dsimp only at h
          generalize hg : IdToken.genForImplicit lib c.idTokenAlg c.idTokenKey c.idTokenKeyId iss i.clientId i.subject
            req.nonce policy.idTokenExpiresIn authTime ((token.map (·.accessToken)).getD []) now = g at h
          cases g with
          | none =>
            obtain ⟨rfl, rfl⟩ := h
            refine .inr (.inl ⟨rfl, .unsigned hf rfl rfl fun h => genForImplicit_none.1 hg ⟨h.1, fun h' => h.2 (.inl (hne.2 h'))⟩⟩)
          | some idt =>
            obtain ⟨rfl, rfl⟩ := h
            obtain ⟨claims, h1, h2⟩ := genForImplicit_signed hg hats
            have h3 := Classical.not_not.1 (mt genForImplicit_none.2 (by rw [hg]; simp))
            exact .inl ⟨some idt, rfl, .signed hf rfl rfl ⟨h3.1, fun h => h.elim (fun h => h3.2 (hne.1 h)) (fun h => absurd rfl h)⟩ h1 h2⟩
        | some code =>
          dsimp only at h
          generalize hg : IdToken.genForHybrid lib c.idTokenAlg c.idTokenKey c.idTokenKeyId iss i.clientId i.subject
            req.nonce policy.idTokenExpiresIn authTime ((token.map (·.accessToken)).getD []) code now = g at h
          cases g with
          | none =>
            obtain ⟨rfl, rfl⟩ := h
            refine .inr (.inl ⟨rfl, .unsigned hf rfl rfl fun h => genForHybrid_none.1 hg ⟨h.1, h.2 (.inr (by simp))⟩⟩)
          | some idt =>
            obtain ⟨rfl, rfl⟩ := h
            obtain ⟨claims, h1, h2⟩ := genForHybrid_signed hg hats
            have h3 := Classical.not_not.1 (mt genForHybrid_none.2 (by rw [hg]; simp))
            exact .inl ⟨some idt, rfl, .signed hf rfl rfl ⟨h3.1, fun _ => h3.2⟩ h1 h2⟩
  · rw [if_neg hf] at h
    obtain ⟨rfl, rfl⟩ := h
    exact .inl ⟨none, rfl, .notAsked (by simpa using hf)⟩

/-- After the token part. -/
theorem pm_frontToken {c0 : List Event} {key : GoStr} {k : Option (GoStr × Params) → Prog Bool} {B : Option OAuthToken → Stage Empty}
    (h1 : ∀ tk, PM lib req.redirectURI req.state [] (k (some ((tk.map (·.accessToken)).getD [], tokenParams key tk))) (B tk))
    (h2 : k none = completeFail lib r req.responseMode req) (hc : c0 = []) :
    PM lib req.redirectURI req.state c0 ((frontToken info f key).bind k) ((TokenMade info req f).andThen B) := by
  subst hc
  refine pm_bind ?_ ?_
  · intro t a h
    rcases frontToken_made (req := req) h with ⟨tk, ha, h3⟩ | ⟨ha, h3⟩ | ⟨ha, h3⟩
    · cases ha
      exact pm_then h3 (h1 tk)
    · cases ha
      rw [h2]
      exact pm_fail (andThen_end h3)
    · cases ha
  · intro t h
    rcases frontToken_made (req := req) h with ⟨tk, ha, h3⟩ | ⟨ha, h3⟩ | ⟨ha, h3⟩
    · cases ha
    · cases ha
    · exact andThen_end h3

/-- After the ID token part. -/
theorem pm_frontIdToken {c : Option Client} {authTime : Int64} {token : Option OAuthToken} {code : Option GoStr}
    {k : Option Params → Prog Bool} {B : Option GoStr → Stage Empty}
    (h1 : ∀ idt, PM lib req.redirectURI req.state [] (k (some (idTokenParams idt))) (B idt))
    (h2 : k none = completeFail lib r req.responseMode req) :
    PM lib req.redirectURI req.state []
      ((frontIdToken policy lib c info f req authTime ((token.map (·.accessToken)).getD []) code).bind k)
      ((IdTokenMade policy lib c info req f authTime token code).andThen B) := by
  refine pm_bind ?_ ?_
  · intro t a h
    rcases frontIdToken_made h with ⟨tk, ha, h3⟩ | ⟨ha, h3⟩ | ⟨ha, h3⟩
    · cases ha
      exact pm_then h3 (h1 tk)
    · cases ha
      rw [h2]
      exact pm_fail (andThen_end h3)
    · cases ha
  · intro t h
    rcases frontIdToken_made h with ⟨tk, ha, h3⟩ | ⟨ha, h3⟩ | ⟨ha, h3⟩
    · cases ha
    · cases ha
    · exact andThen_end h3

theorem stateParam_eq : stateParam req = param b!"state" req.state := rfl
theorem scopeParam_eq : scopeParam req = param b!"scope" req.scope := rfl

theorem pm_complete : PM lib req.redirectURI req.state [] (complete policy lib r req.responseMode info req)
    (Issue policy lib info req) := by
  unfold complete Issue
  cases req.flow with
  | none => exact pm_panic ⟨rfl, rfl⟩
  | some f =>
    dsimp only
    cases hty : f.type <;> dsimp only
    · unfold completeCode
      refine pm_ask rfl fun ans => ?_
      cases ans with
      | none => exact pm_callbackFail (andThen_end .noCode)
      | some code =>
        refine pm_ask rfl fun ans => ?_
        cases ans with
        | none => exact pm_callbackFail (andThen_end .noAuthTime)
        | some authTime =>
          refine pm_ask rfl fun ans => ?_
          cases ans with
          | some e => exact pm_fail (andThen_end .notStored)
          | none => exact pm_then .made (pm_success rfl ⟨rfl, rfl⟩)
    · unfold completeImplicit
      refine pm_ask rfl fun ans => ?_
      rcases ans with ⟨c, _ | e⟩
      · refine pm_then (.found (c := c)) (pm_frontToken (r := r) ?_ rfl rfl)
        intro tk
        refine pm_ask rfl fun ans => ?_
        cases ans with
        | none => exact pm_callbackFail (andThen_end .broke)
        | some authTime =>
          refine pm_then (.known (authTime := authTime)) (pm_frontIdToken (r := r) ?_ rfl)
          intro idt
          exact pm_success rfl ⟨rfl, rfl⟩
      · exact pm_fail (andThen_end .broke)
    · unfold completeHybrid
      refine pm_ask rfl fun ans => ?_
      cases ans with
      | none => exact pm_callbackFail (andThen_end .noCode)
      | some code =>
        refine pm_ask rfl fun ans => ?_
        cases ans with
        | none => exact pm_callbackFail (andThen_end .noAuthTime)
        | some authTime =>
          refine pm_ask rfl fun ans => ?_
          cases ans with
          | some e => exact pm_fail (andThen_end .notStored)
          | none =>
            refine pm_then .made ?_
            refine pm_ask rfl fun ans => ?_
            rcases ans with ⟨c, _ | e⟩
            · refine pm_then (.found (c := c)) (pm_frontToken (r := r) ?_ rfl rfl)
              intro tk
              refine pm_frontIdToken (r := r) ?_ rfl
              intro idt
              exact pm_success rfl ⟨rfl, rfl⟩
            · exact pm_fail (andThen_end .broke)
    · exact pm_ret ⟨rfl, rfl⟩

/-! ## Deciding -/

theorem mf_finish {i : AuthInfo} : MF lib req.redirectURI req.state [] (finish policy lib r i req : AuthM α)
    (Issue policy lib (some i) req).last := by
  unfold finish
  have key := fun t o => pm_complete (policy := policy) (lib := lib) (r := r) (req := req) (info := some i) t o
  refine ah_bind (Ok := fun t b => Runs (complete policy lib r req.responseMode (some i) req) t (.ok b))
    (ah_lift (fun _ _ h => h) ?_) ?_
  · intro t h
    obtain ⟨c, e, h1, h2⟩ := key _ _ h
    exact ⟨c, e, ⟨e, rfl, h1⟩, h2⟩
  · intro t b h
    obtain ⟨c, e, h1, h2⟩ := key _ _ h
    refine ah_throw ⟨c, e, ⟨e, rfl, h1⟩, by simpa using h2⟩

theorem sameGrant_iff {i : AuthInfo} : (i.isActive = true ∧ Scope.same i.scope req.scope = true) ↔ SameGrant i req := by
  unfold SameGrant
  refine and_congr Iff.rfl ⟨fun h => ?_, ?_⟩
  · exact ⟨_, _, fields_iff.2 rfl, fields_iff.2 rfl, (C46_same_iff_perm (fields_iff.2 rfl) (fields_iff.2 rfl)).1 h⟩
  · rintro ⟨ws, wt, h1, h2, h3⟩
    exact (C46_same_iff_perm h1 h2).2 h3

/-- A stage with its calls so far. -/
theorem mf_consentCovers {i : AuthInfo} {c0 : List Event} {R : Stage α} {k : Bool → AuthM α}
    (h1 : ¬ SameGrant i req → MF lib req.redirectURI req.state c0 (k false) R)
    (h2 : ∀ now, SameGrant i req → ¬ now < i.authorizedAt + policy.consentOmissionPeriod →
      MF lib req.redirectURI req.state (c0 ++ [⟨.now, now⟩]) (k false) R)
    (h3 : ∀ now, SameGrant i req → now < i.authorizedAt + policy.consentOmissionPeriod →
      MF lib req.redirectURI req.state (c0 ++ [⟨.now, now⟩]) (k true) R) :
    MF lib req.redirectURI req.state c0 (consentCovers policy i req >>= k) R := by
  have spec : AH (consentCovers policy i req) (fun t b =>
      (¬ SameGrant i req ∧ t = [] ∧ b = false) ∨
      (∃ now : Int64, SameGrant i req ∧ t = [⟨.now, now⟩] ∧ b = decide (now < i.authorizedAt + policy.consentOmissionPeriod)))
      (fun _ _ => False) := by
    unfold consentCovers
    split
    · rename_i h
      exact ah_ask_bind fun now => ah_pure (.inr ⟨now, sameGrant_iff.1 h, rfl, rfl⟩)
    · rename_i h
      exact ah_pure (.inl ⟨fun h' => h (sameGrant_iff.2 h'), rfl, rfl⟩)
  refine ah_bind (ah_conseq spec (fun _ _ h => h) (fun _ _ h => h.elim)) ?_
  rintro t b (⟨h, rfl, rfl⟩ | ⟨now, h, rfl, rfl⟩)
  · exact h1 h
  · have go : MF lib req.redirectURI req.state (c0 ++ [⟨.now, now⟩])
        (k (decide (now < i.authorizedAt + policy.consentOmissionPeriod))) R := by
      by_cases hn : now < i.authorizedAt + policy.consentOmissionPeriod
      · rw [decide_eq_true hn]; exact h3 now h hn
      · rw [decide_eq_false hn]; exact h2 now h hn
    refine ah_conseq go ?_ ?_
    · intro t a h
      simp only [List.append_assoc] at h
      exact h
    · rintro t o ⟨c, e, h1, h2⟩
      refine ⟨⟨.now, now⟩ :: c, e, by simpa using h1, ?_⟩
      exact ends_prepend [⟨.now, now⟩] h2

theorem mf_noneComplete : MF lib req.redirectURI req.state [] (noneComplete policy lib r req : AuthM α)
    (IssueOrRefuse policy lib req).last := by
  have stop : ∀ {c : List Event} {e}, IssueOrRefuse policy lib req c (.inr e) →
      (IssueOrRefuse policy lib req).last (α := α) c (.inr e) := fun h => ⟨_, rfl, h⟩
  have refuse : ∀ {c : List Event}, EarlierConsent policy req c (.inl none) →
      (IssueOrRefuse policy lib req).last (α := α) c (.inr (.error req.responseMode b!"consent_required" [])) := by
    intro c h
    refine stop ?_
    have := andThen_next (b := fun (x : Option AuthInfo) => (match x with
      | some info => Issue policy lib (some info) req
      | none => .ends (.error req.responseMode b!"consent_required" []))) (c' := []) h ⟨rfl, rfl⟩
    rwa [List.append_nil] at this
  unfold noneComplete
  refine mf_ask rfl fun ans => ?_
  cases ans with
  | none => exact mf_callbackFailed (stop (andThen_end .noUser))
  | some uid =>
    refine mf_ask rfl fun ans => ?_
    rcases ans with ⟨_ | i, _ | _ | _ | _ | n⟩ <;> dsimp only
    · exact mf_errorTo (stop (andThen_end (.broke (by simp))))
    · exact mf_errorTo (stop (andThen_end (.broke (by simp))))
    · exact mf_errorTo (stop (andThen_end (.broke (by simp))))
    · exact mf_errorTo (refuse (.notFound (by simp) (by simp)))
    · exact mf_errorTo (refuse (.notFound (by simp) (by simp)))
    · refine mf_consentCovers ?_ ?_ ?_
      · intro h
        exact mf_errorTo (refuse (.otherGrant h))
      · intro now h h'
        exact mf_errorTo (refuse (.tooOld h h'))
      · intro now h h'
        refine mf_shift mf_finish ?_
        rintro c res ⟨e, rfl, h1⟩
        exact stop (.inr ⟨_, _, some i, rfl, .covered h h', h1⟩)
    · exact mf_errorTo (stop (andThen_end (.broke (by simp))))
    · exact mf_errorTo (stop (andThen_end (.broke (by simp))))
    · exact mf_errorTo (refuse (.notFound (by simp) (by simp)))
    · exact mf_errorTo (refuse (.notFound (by simp) (by simp)))

theorem mf_requireLogin : MF lib req.redirectURI req.state [] (requireLogin lib r req) (SessionNeeded req) := by
  unfold requireLogin
  refine mf_ask rfl fun ans => ?_
  rcases ans with _ | _ | _ <;> dsimp only
  · exact mf_callbackFailed .broke
  · exact mf_errorTo .no
  · exact mf_pure .yes

theorem mf_requireMatch {sub hint desc} (hd : desc = b!"'" ++ hint ++ b!"' doesn't match to current login user") :
    MF lib req.redirectURI req.state [] (requireMatch lib r req sub desc) (MatchNeeded req sub hint) := by
  subst hd
  unfold requireMatch
  refine mf_ask rfl fun ans => ?_
  rcases ans with _ | _ | _ <;> dsimp only
  · exact mf_callbackFailed .broke
  · exact mf_errorTo .no
  · exact mf_pure .yes

/-- The runs of the library on a hint. -/
theorem hintParse_exact {hint : GoStr} {t o} (h : Runs (Jwt.parse lib hint () (hintKeyFunc clnt)) t o) :
    (t = [] ∧ ¬ ReadableHint lib hint ∧ ∃ tk e, o = .ok (tk, some e, ())) ∨
    (ReadableHint lib hint ∧ ∃ now tk, t = [⟨.wallNow, now⟩] ∧ lib.jwtDecode hint = some tk ∧
      ((∃ key, clnt.idTokenKey = some key ∧ SignatureOk lib (tk.alg.getD []) hint key ∧
        NotExpired now (tk.claim b!"exp") ∧ NotEarly now (tk.claim b!"iat") ∧
        NotEarly now (tk.claim b!"nbf") ∧ o = .ok (some tk, none, ())) ∨
       ((∀ tk, ¬ ValidHint lib clnt hint tk now) ∧ ∃ e, o = .ok (some tk, some e, ())))) := by
  unfold Jwt.parse at h
  cases hd : lib.jwtDecode hint with
  | none =>
    rw [hd] at h
    obtain ⟨rfl, rfl⟩ := h
    refine .inl ⟨rfl, ?_, _, _, rfl⟩
    rintro ⟨tk, alg, h1, _⟩
    rw [hd] at h1; cases h1
  | some tk =>
    rw [hd] at h
    dsimp only at h
    cases hf : tk.alg.bind Jwt.family with
    | none =>
      rw [hf] at h
      obtain ⟨rfl, rfl⟩ := h
      refine .inl ⟨rfl, ?_, _, _, rfl⟩
      rintro ⟨tk', alg, h1, h2, h3⟩
      rw [hd] at h1; cases h1
      obtain ⟨fam, h3⟩ := family_known.2 h3
      rw [h2] at hf
      dsimp only [Option.bind] at hf
      rw [h3] at hf; cases hf
    | some fam =>
      rw [hf] at h
      dsimp only at h
      unfold hintKeyFunc at h
      replace h : Runs ((ask .wallNow).bind _) t o := h
      replace h := runs_bind_ask.1 h
      obtain ⟨now, t1, rfl, h⟩ := h
      dsimp only at h
      obtain ⟨rfl, rfl⟩ := h
      have hread : ReadableHint lib hint := by
        cases ha : tk.alg with
        | none => rw [ha] at hf; cases hf
        | some alg => rw [ha] at hf; exact ⟨tk, alg, hd, ha, family_known.1 ⟨fam, hf⟩⟩
      refine .inr ⟨hread, now, tk, rfl, rfl, ?_⟩
      split
      · rename_i hn
        simp only [Jwt.VErr.none?, Bool.not_eq_true', Bool.or_eq_false_iff, Bool.not_eq_false'] at hn
        obtain ⟨⟨⟨⟨⟨_, _⟩, h1⟩, h2⟩, h3⟩, h4⟩ := hn
        left
        cases hk : clnt.idTokenKey with
        | none => rw [hk] at h1; simp [Jwt.verifies] at h1
        | some key =>
          rw [hk] at h1
          exact ⟨key, rfl, verifies_iff.1 h1, expOk_iff.1 h2, notBeforeOk_iff.1 h3, notBeforeOk_iff.1 h4, rfl⟩
      · rename_i hn
        refine .inr ⟨?_, _, rfl⟩
        rintro tk' ⟨h1, ⟨key, h2, h3⟩, h4, h5, h6⟩
        rw [hd] at h1; cases h1
        apply hn
        simp [Jwt.VErr.none?, h2, verifies_iff.2 h3, expOk_iff.2 h4, notBeforeOk_iff.2 h5, notBeforeOk_iff.2 h6]

theorem numClaim_iff {v : Option JVal} : (∃ n, v = some (.float n) ∨ v = some (.number (some n))) ↔ Assertion.numClaim v ≠ none := by
  unfold Assertion.numClaim
  constructor
  · rintro ⟨n, rfl | rfl⟩ <;> simp
  · intro h
    split at h
    · exact ⟨_, .inr rfl⟩
    · exact ⟨_, .inl rfl⟩
    · exact absurd rfl h

theorem mf_checkIdTokenHint : MF lib req.redirectURI req.state [] (checkIdTokenHint lib r clnt req) (HintNeeded lib clnt req) := by
  unfold checkIdTokenHint
  dsimp only
  split
  · rename_i h
    exact mf_errorTo (.missing h)
  · rename_i hne
    refine ah_bind (Ok := fun t x => Runs (Jwt.parse lib req.idTokenHint () (hintKeyFunc clnt)) t (.ok x))
      (ah_lift (fun _ _ h => h) ?_) ?_
    · intro t h
      rcases hintParse_exact h with ⟨_, _, tk, e, h⟩ | ⟨_, now, tk, _, _, ⟨_, _, _, _, _, _, h⟩ | ⟨_, e, h⟩⟩ <;> cases h
    · intro t x h
      have done : ∀ {β : Type} {p : AuthM β} {R : Stage β} {t0 : List Event}, MF lib req.redirectURI req.state (interactions t0) p R →
          AH p (fun t a => R ([] ++ interactions (t0 ++ t)) (.inl a))
            (fun t o => ∃ c e, R ([] ++ c) (.inr e) ∧ Ends lib req.redirectURI req.state (t0 ++ t) o c e) := by
        intro β p R t0 h
        refine ah_conseq h ?_ ?_
        · intro t a h; rw [interactions_append]; exact h
        · rintro t o ⟨c, e, h1, h2⟩
          exact ⟨interactions t0 ++ c, e, h1, ends_prepend t0 h2⟩
      rcases hintParse_exact h with ⟨rfl, hr, tk, e, h⟩ | ⟨hr, now, tk, rfl, hd, ⟨key, hk, h1, h2, h3, h4, h⟩ | ⟨hn, e, h⟩⟩ <;> cases h
      · exact done (mf_errorTo (.unreadable hne hr))
      · refine done ?_
        dsimp only
        have hv : ValidHint lib clnt req.idTokenHint tk now := ⟨hd, ⟨key, hk, h1⟩, h2, h3, h4⟩
        split
        · rename_i h
          exact mf_errorTo (.noExpiry hne hr hv fun h6 => numClaim_iff.1 h6 h)
        · rename_i n h
          have he : SaysExpiry tk := numClaim_iff.2 (by rw [h]; simp)
          split
          · rename_i h'
            exact mf_errorTo (.noSubject hne hr hv he h')
          · rename_i sub h'
            exact mf_pure (.good hne hr ⟨tk, hv, he, h'⟩)
      · exact done (mf_errorTo (.invalid hne hr hn))

theorem mf_promptNone : MF lib req.redirectURI req.state [] (promptNone policy lib r clnt req) (Spec.Silent policy lib clnt req) := by
  unfold promptNone Spec.Silent
  cases clnt.nonePromptPolicy <;> dsimp only
  · exact mf_log (mf_errorTo ⟨rfl, rfl⟩)
  · exact mf_bind mf_requireLogin fun _ _ _ => mf_noneComplete
  · split
    · rename_i h
      exact mf_errorTo (.inl ⟨h, rfl, rfl⟩)
    · rename_i h
      refine mf_mono (mf_bind mf_requireLogin fun _ _ _ => mf_bind (mf_requireMatch (hint := b!"login_hint") rfl) fun _ _ _ => mf_noneComplete) ?_
      intro c res h'
      exact .inr ⟨h, h'⟩
  · exact mf_bind mf_checkIdTokenHint fun _ _ _ => mf_bind (mf_requireMatch (hint := b!"id_token_hint") rfl) fun _ _ _ => mf_noneComplete
  · exact mf_pure ⟨rfl, rfl⟩

theorem mf_confirmLogin : MF lib req.redirectURI req.state [] (confirmLogin lib r req) (LoginShown req) := by
  unfold confirmLogin
  refine mf_ask rfl fun ans => ?_
  rcases ans with _ | _ | _ <;> dsimp only
  · exact mf_callbackFailed .broke
  · refine mf_log (mf_ask rfl fun ans => ?_)
    cases ans <;> dsimp only
    · exact mf_callbackFailed .notShown
    · exact mf_throw .shown
  · exact mf_pure .loggedIn

theorem mf_promptLogin : MF lib req.redirectURI req.state [] (promptLogin lib r req) (Reauthenticated req) := by
  unfold promptLogin
  split
  · rename_i h
    have h := prompt_hasWord.1 h
    refine mf_ask rfl fun ans => ?_
    rcases ans with _ | _ | _ <;> dsimp only
    · exact mf_callbackFailed (.broke h)
    · exact mf_log (mf_ask rfl fun b => mf_throw (.shown h))
    · exact mf_pure (.done h)
  · rename_i h
    exact mf_pure (.notAsked fun h' => h (prompt_hasWord.2 h'))

theorem mf_checkAuthAge : MF lib req.redirectURI req.state [] (checkAuthAge lib r req) (YoungEnough req) := by
  unfold checkAuthAge
  refine mf_ask rfl fun ans => ?_
  cases ans with
  | none => exact mf_callbackFailed .broke
  | some a =>
    dsimp only
    split
    · rename_i h
      refine mf_ask rfl fun now => ?_
      split
      · rename_i h'
        exact mf_log (mf_ask rfl fun b => mf_throw (.tooOld h h'))
      · rename_i h'
        exact mf_pure (.young h h')
    · rename_i h
      exact mf_pure (.notAsked h)

theorem mf_omitConsent : MF lib req.redirectURI req.state [] (omitConsent policy lib r clnt req) (ConsentOmitted policy lib clnt req) := by
  unfold omitConsent
  split
  · rename_i h
    exact mf_pure (.inl ⟨fun h' => h'.2 (prompt_hasWord.1 h), rfl, rfl⟩)
  · rename_i hp
    have hp' : ¬ HasWord req.prompt b!"consent" := fun h' => hp (prompt_hasWord.2 h')
    split
    · rename_i hq
      have go : ∀ {c : List Event} {res}, ((EarlierConsent policy req).andThen (fun
          | some info => (Issue policy lib (some info) req).last
          | none => .skip)) c res → ConsentOmitted policy lib clnt req c res := fun h => .inr ⟨⟨hq, hp'⟩, h⟩
      have skip : ∀ {c : List Event}, EarlierConsent policy req c (.inl none) →
          ConsentOmitted policy lib clnt req c (.inl ()) := by
        intro c h
        refine go ?_
        have := andThen_next (b := fun (x : Option AuthInfo) => (match x with
          | some info => (Issue policy lib (some info) req).last
          | none => Stage.skip)) (c' := []) h ⟨rfl, rfl⟩
        rwa [List.append_nil] at this
      refine mf_ask rfl fun ans => ?_
      cases ans with
      | none => exact mf_callbackFailed (go (andThen_end .noUser))
      | some uid =>
        refine mf_ask rfl fun ans => ?_
        rcases ans with ⟨_ | i, _ | _ | _ | _ | n⟩ <;> dsimp only
        · exact mf_errorTo (go (andThen_end (.broke (by simp))))
        · exact mf_errorTo (go (andThen_end (.broke (by simp))))
        · exact mf_errorTo (go (andThen_end (.broke (by simp))))
        · exact mf_pure (skip (.notFound (by simp) (by simp)))
        · exact mf_pure (skip (.notFound (by simp) (by simp)))
        · refine mf_consentCovers ?_ ?_ ?_
          · intro h
            exact mf_pure (skip (.otherGrant h))
          · intro now h h'
            exact mf_pure (skip (.tooOld h h'))
          · intro now h h'
            refine mf_shift mf_finish ?_
            rintro c res ⟨e, rfl, h1⟩
            exact go (.inr ⟨_, _, some i, rfl, .covered h h', e, rfl, h1⟩)
        · exact mf_errorTo (go (andThen_end (.broke (by simp))))
        · exact mf_errorTo (go (andThen_end (.broke (by simp))))
        · exact mf_pure (skip (.notFound (by simp) (by simp)))
        · exact mf_pure (skip (.notFound (by simp) (by simp)))
    · rename_i hq
      exact mf_pure (.inl ⟨(fun h => by rw [hq] at h; cases h.1), rfl, rfl⟩)
    · rename_i hq
      exact mf_pure (.inl ⟨(fun h => by rw [hq] at h; cases h.1), rfl, rfl⟩)

/-- A stage that ends the function, for functions that return a value. -/
def Closed (R : Stage Empty) : Stage Bool := fun c res =>
  match res with
  | .inl b => R c (.inr (.stop b))
  | .inr e => R c (.inr e)

theorem mf_showConsent : MF lib req.redirectURI req.state [] (showConsent lib r clnt req) (Closed (ConsentShown clnt req)) := by
  unfold showConsent
  refine mf_ask rfl fun ans => ?_
  cases ans <;> dsimp only
  · exact mf_callbackFailed (R := Closed _) ConsentShown.notShown
  · exact mf_pure (R := Closed _) ConsentShown.shown

theorem closed_andThen {R : Stage α} {S : α → Stage Empty} {c res} (h : (R.andThen fun a => Closed (S a)) c res) :
    Closed (R.andThen S) c res := by
  rcases h with ⟨e, rfl, h⟩ | ⟨c1, c2, x, rfl, h1, h2⟩
  · exact .inl ⟨e, rfl, h⟩
  · cases res with
    | inl b => exact .inr ⟨c1, c2, x, rfl, h1, h2⟩
    | inr e => exact .inr ⟨c1, c2, x, rfl, h1, h2⟩

theorem mf_bind_closed {uri state : GoStr} {p : AuthM α} {k : α → AuthM Bool} {R : Stage α} {S : α → Stage Empty}
    (h : MF lib uri state [] p R) (hk : ∀ c a, R c (.inl a) → MF lib uri state [] (k a) (Closed (S a))) :
    MF lib uri state [] (p >>= k) (Closed (R.andThen S)) :=
  mf_mono (mf_bind h hk) fun _ _ h => closed_andThen h

theorem mf_handleRequestM : MF lib (r.formValue b!"redirect_uri") (r.formValue b!"state") []
    (handleRequestM policy lib r) (Closed (Handled policy lib r)) := by
  unfold handleRequestM
  refine mf_bind_closed (mf_identify r) fun _ clnt _ => mf_bind_closed mf_buildRequest fun c req hreq => ?_
  have hu : r.formValue b!"redirect_uri" = req.redirectURI := by cases hreq; rfl
  have hs : r.formValue b!"state" = req.state := by cases hreq; rfl
  rw [hu, hs]
  have rest : MF lib req.redirectURI req.state [] (do
      promptLogin lib r req
      checkAuthAge lib r req
      omitConsent policy lib r clnt req
      showConsent lib r clnt req) _ :=
    mf_bind_closed mf_promptLogin fun _ _ _ => mf_bind_closed mf_checkAuthAge fun _ _ _ =>
      mf_bind_closed mf_omitConsent fun _ _ _ => mf_showConsent
  dsimp only
  split
  · rename_i h
    exact mf_bind_closed (mf_mono mf_promptNone fun _ _ h' => .inl ⟨h, h'⟩) fun _ _ _ => rest
  · rename_i h
    exact mf_bind_closed (mf_mono mf_confirmLogin fun _ _ h' => .inr ⟨h, h'⟩) fun _ _ _ => rest

/-- Every run of `HandleRequest` follows the table. -/
theorem handleRequest_table {t o} (h : Runs (handleRequest policy lib r) t o) :
    ∃ c e, Handled policy lib r c (.inr e) ∧ Ends lib (r.formValue b!"redirect_uri") (r.formValue b!"state") t o c e := by
  have key := mf_handleRequestM (policy := policy) (lib := lib) (r := r)
  unfold handleRequest at h
  rcases runs_bind.1 h with ⟨x, t1, t2, rfl, h1, h2⟩ | ⟨h1, rfl⟩
  · cases x with
    | ok b =>
      obtain ⟨rfl, rfl⟩ := h2
      have := key.ok h1
      exact ⟨_, .stop b, this, by simp, rfl⟩
    | error b =>
      obtain ⟨rfl, rfl⟩ := h2
      obtain ⟨c, e, h3, h4⟩ := key.err h1
      exact ⟨c, e, h3, by simpa using h4⟩
  · exact key.panic h1

/-- Every run of `CompleteRequest` follows the table. -/
theorem completeRequest_table {t o} (h : Runs (completeRequest policy lib r) t o) :
    ∃ ans t', t = ⟨.continue_, ans⟩ :: t' ∧
      match ans with
      | none => interactions t' = [] ∧ o = .ok false
      | some none => t' = [] ∧ o = .panic
      | some (some req) => ∃ c e, Completed policy lib req c (.inr e) ∧ Ends lib req.redirectURI req.state t' o c e := by
  unfold completeRequest at h
  replace h := runs_bind_ask.1 h
  obtain ⟨ans, t1, rfl, h⟩ := h
  refine ⟨ans, t1, rfl, ?_⟩
  rcases ans with _ | _ | req <;> dsimp only at h ⊢
  · replace h := runs_bind_ask.1 h
    obtain ⟨x, t2, rfl, rfl, rfl⟩ := h
    exact ⟨rfl, rfl⟩
  · exact h
  · have key : PM lib req.redirectURI req.state [] (do
        match ← ask .getLoginUserId with
        | none => completeCallbackFail lib r req.responseMode req b!"GetLoginUserId"
        | some uid => do
          match ← ask (.createOrUpdateAuthInfo uid req.clientId req.scope) with
          | (_, some _) => completeFail lib r req.responseMode req
          | (info, none) => complete policy lib r req.responseMode info req) (Completed policy lib req) := by
      refine pm_ask rfl fun ans => ?_
      cases ans with
      | none => exact pm_callbackFail (andThen_end .noUser)
      | some uid =>
        refine pm_ask rfl fun ans => ?_
        rcases ans with ⟨i, _ | e⟩ <;> dsimp only
        · exact pm_then .recorded pm_complete
        · exact pm_fail (andThen_end .notRecorded)
    exact key _ _ h

end Goidc
