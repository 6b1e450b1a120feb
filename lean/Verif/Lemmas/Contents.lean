import Verif.Props.Authorization
import Verif.Lemmas.GrantAnatomy

/-! # What a completed request sends and stores -/

namespace Goidc

open Spec AuthzEndpoint Props

variable {policy : Policy} {lib : Lib} {info : Option AuthInfo} {req : Request} {f : Flow} {w : List Event} {ps : Params}

theorem hasSuffix_split {s suf : GoStr} (h : hasSuffix s suf = true) : ∃ p, s = p ++ suf := by
  unfold hasSuffix at h
  simp only [Bool.and_eq_true, beq_iff_eq] at h
  exact ⟨s.take (s.length - suf.length), by
    have := List.take_append_drop (s.length - suf.length) s
    rw [h.2] at this; exact this.symm⟩

theorem base64_ne_nil {d : GoStr} (h : d ≠ []) : Spec.base64 d ≠ [] := by
  rw [← b64Encode_std_spec, b64Encode_eq]
  intro h0
  have h1 := List.append_eq_nil_iff.1 h0
  have h2 := b64Raw_length false d
  rw [h1.1] at h2
  have : d.length ≠ 0 := by simpa using h
  simp at h2
  omega

theorem hash_spec {alg tok h : GoStr} (hh : IdToken.hash lib alg tok = some h) : LeftHalfHash lib alg tok h ∧ h ≠ [] := by
  unfold IdToken.hash at hh
  have hne : ∀ {l : GoStr} {n m : Nat}, l.length = n → 0 < n → 0 < m → l.take m ≠ [] := by
    intro l n m hl hn hm h0
    have := congrArg List.length h0
    rw [List.length_take, hl, List.length_nil] at this
    omega
  split at hh
  · rename_i hs
    cases hh
    rw [b64Encode_std_spec]
    exact ⟨.inl (by obtain ⟨p, hp⟩ := hasSuffix_split hs; exact ⟨p, hp, rfl⟩),
      base64_ne_nil (hne (lib.sha256_length tok) (by decide) (by decide))⟩
  · split at hh
    · rename_i hs
      cases hh
      rw [b64Encode_std_spec]
      exact ⟨.inr (.inl (by obtain ⟨p, hp⟩ := hasSuffix_split hs; exact ⟨p, hp, rfl⟩)),
        base64_ne_nil (hne (lib.sha384_length tok) (by decide) (by decide))⟩
    · split at hh
      · rename_i hs
        cases hh
        rw [b64Encode_std_spec]
        exact ⟨.inr (.inr (by obtain ⟨p, hp⟩ := hasSuffix_split hs; exact ⟨p, hp, rfl⟩)),
          base64_ne_nil (hne (lib.sha512_length tok) (by decide) (by decide))⟩
      · cases hh

/-- The hash of a token is determined. -/
theorem leftHalfHash_unique {alg tok h1 h2 : GoStr} (a : LeftHalfHash lib alg tok h1) (b : LeftHalfHash lib alg tok h2) :
    h1 = h2 := by
  have key : ∀ {p q x y : GoStr}, p ++ x = q ++ y → x.length = y.length → x = y := fun h hl => (List.append_inj' h hl).2
  rcases a with ⟨p, hp, rfl⟩ | ⟨p, hp, rfl⟩ | ⟨p, hp, rfl⟩ <;> rcases b with ⟨q, hq, rfl⟩ | ⟨q, hq, rfl⟩ | ⟨q, hq, rfl⟩ <;>
    first
    | rfl
    | (exact absurd (key (hp.symm.trans hq) rfl) (by decide))

/-- The claims `rawGen` signs. -/
theorem rawGen_signed {alg key kid iss aud sub nonce} {exp authTime now : Int64} {ah ch tok}
    (h : IdToken.rawGen lib alg key kid iss aud sub nonce exp authTime now ah ch = some tok) :
    ∃ claims, SignedBy lib alg kid claims key tok ∧
      ∀ k v, (k, v) ∈ claims ↔ CodeIdTokenClaims iss aud sub nonce exp now authTime k v ∨
        (k = b!"at_hash" ∧ ah ≠ [] ∧ v = .str ah) ∨ (k = b!"c_hash" ∧ ch ≠ [] ∧ v = .str ch) := by
  unfold IdToken.rawGen at h
  split at h
  · cases h
  · refine ⟨_, signed_iff claims_nodup h, fun k v => ?_⟩
    unfold IdToken.claims CodeIdTokenClaims
    simp only [List.mem_append, List.mem_cons, Prod.mk.injEq, List.not_mem_nil, or_false]
    by_cases h1 : nonce = [] <;> by_cases h2 : now ≥ 0 <;> by_cases h3 : authTime ≥ 0 <;>
      by_cases h4 : ah = [] <;> by_cases h5 : ch = [] <;> simp [h1, h2, h3, h4, h5, or_assoc]

theorem genForImplicit_signed {alg key kid iss aud sub nonce} {expiresIn authTime now : Int64} {atk tok : GoStr} {ats : List GoStr}
    (h : IdToken.genForImplicit lib alg key kid iss aud sub nonce expiresIn authTime atk now = some tok)
    (hat : ats = [atk] ∨ (ats = [] ∧ atk = [])) :
    ∃ claims, SignedBy lib alg kid claims key tok ∧ ∀ k v, (k, v) ∈ claims ↔
      FrontIdTokenClaims lib alg iss aud sub nonce (now + expiresIn) now authTime ats [] k v := by
  unfold IdToken.genForImplicit at h
  split at h
  · cases h
  · rename_i ah hah
    obtain ⟨claims, h1, h2⟩ := rawGen_signed h
    refine ⟨claims, h1, fun k v => (h2 k v).trans (or_congr Iff.rfl (or_congr (and_congr Iff.rfl ?_) ?_))⟩
    · split at hah
      · rename_i ha
        cases hah
        constructor
        · rintro ⟨h, _⟩; exact absurd rfl h
        · rintro ⟨a, h, rfl, hne, _⟩
          rcases hat with hat | ⟨hat, _⟩
          · cases hat; exact absurd ha hne
          · cases hat
      · rename_i ha
        obtain ⟨hs, hne⟩ := hash_spec hah
        rcases hat with rfl | ⟨_, rfl⟩
        · constructor
          · rintro ⟨_, rfl⟩; exact ⟨atk, ah, rfl, ha, hs, rfl⟩
          · rintro ⟨a, h', hl, _, hs', rfl⟩
            cases hl
            exact ⟨hne, by rw [leftHalfHash_unique hs hs']⟩
        · exact absurd rfl ha
    · simp

theorem genForHybrid_signed {alg key kid iss aud sub nonce} {expiresIn authTime now : Int64} {atk code tok : GoStr} {ats : List GoStr}
    (h : IdToken.genForHybrid lib alg key kid iss aud sub nonce expiresIn authTime atk code now = some tok)
    (hat : ats = [atk] ∨ (ats = [] ∧ atk = [])) :
    ∃ claims, SignedBy lib alg kid claims key tok ∧ ∀ k v, (k, v) ∈ claims ↔
      FrontIdTokenClaims lib alg iss aud sub nonce (now + expiresIn) now authTime ats [code] k v := by
  unfold IdToken.genForHybrid at h
  split at h
  · cases h
  · rename_i ah hah
    split at h
    · cases h
    rename_i ch hch
    obtain ⟨claims, h1, h2⟩ := rawGen_signed h
    refine ⟨claims, h1, fun k v => (h2 k v).trans (or_congr Iff.rfl (or_congr (and_congr Iff.rfl ?_) (and_congr Iff.rfl ?_)))⟩
    · split at hah
      · rename_i ha
        cases hah
        constructor
        · rintro ⟨h, _⟩; exact absurd rfl h
        · rintro ⟨a, h, rfl, hne, _⟩
          rcases hat with hat | ⟨hat, _⟩
          · cases hat; exact absurd ha hne
          · cases hat
      · rename_i ha
        obtain ⟨hs, hne⟩ := hash_spec hah
        rcases hat with rfl | ⟨_, rfl⟩
        · constructor
          · rintro ⟨_, rfl⟩; exact ⟨atk, ah, rfl, ha, hs, rfl⟩
          · rintro ⟨a, h', hl, _, hs', rfl⟩
            cases hl
            exact ⟨hne, by rw [leftHalfHash_unique hs hs']⟩
        · exact absurd rfl ha
    · obtain ⟨hs, hne⟩ := hash_spec hch
      constructor
      · rintro ⟨_, rfl⟩; exact ⟨code, ch, rfl, hs, rfl⟩
      · rintro ⟨a, h', hl, hs', rfl⟩
        cases hl
        exact ⟨hne, by rw [leftHalfHash_unique hs hs']⟩

/-- What a completed request sends and stores. -/
structure Contents (policy : Policy) (lib : Lib) (info : Option AuthInfo) (req : Request) (f : Flow)
    (w : List Event) (ps : Params) : Prop where
  code : f.type = .authorizationCode ∨ f.type = .hybrid → ∃ c authTime, valuesOf ps b!"code" = [c] ∧
    ⟨.createAuthorizationCode, some c⟩ ∈ w ∧ ⟨.getAuthTime, some authTime⟩ ∈ w ∧
    ⟨.createAuthSession info ⟨req.redirectURI, c, policy.authSessionExpiresIn, req.codeVerifier, req.nonce, authTime⟩, none⟩ ∈ w
  noCode : f.type = .implicit → valuesOf ps b!"code" = []
  token : f.type ≠ .authorizationCode → f.requireAccessToken = true → ∃ tk,
    ⟨.createOAuthToken info false, (some tk, none)⟩ ∈ w ∧ valuesOf ps b!"access_token" = [tk.accessToken] ∧
    valuesOf ps b!"token_type" = [b!"bearer"] ∧
    (f.type = .hybrid → valuesOf ps b!"expires_in" = [itoa tk.accessTokenExpiresIn])
  noToken : f.type = .authorizationCode ∨ f.requireAccessToken = false → valuesOf ps b!"access_token" = [] ∧
    ∀ e ∈ w, ∀ i b, e.q ≠ .createOAuthToken i b
  idToken : f.type ≠ .authorizationCode → f.requireIdToken = true → ∃ c i iss now authTime idt claims,
    ⟨.findClientById req.clientId, (some c, none)⟩ ∈ w ∧ info = some i ∧ ⟨.issuer, iss⟩ ∈ w ∧ ⟨.now, now⟩ ∈ w ∧
    ⟨.getAuthTime, some authTime⟩ ∈ w ∧ valuesOf ps b!"id_token" = [idt] ∧
    SignedBy lib c.idTokenAlg c.idTokenKeyId claims c.idTokenKey idt ∧
    ∀ k v, (k, v) ∈ claims ↔ FrontIdTokenClaims lib c.idTokenAlg iss i.clientId i.subject req.nonce
      (now + policy.idTokenExpiresIn) now authTime (valuesOf ps b!"access_token") (valuesOf ps b!"code") k v
  noIdToken : f.type = .authorizationCode ∨ f.requireIdToken = false → valuesOf ps b!"id_token" = []

theorem stateParam_other {k : GoStr} (hk : b!"state" ≠ k) : valuesOf (stateParam req) k = [] := by
  unfold stateParam
  split
  · rfl
  · rw [valuesOf_cons_ne hk]; rfl

theorem valuesOf_cons_eq {k v : GoStr} {ps : Params} : valuesOf ((k, v) :: ps) k = v :: valuesOf ps k := by
  simp [valuesOf]

theorem tokenPart_values {key t atk ps} (h : TokenPart info f key t atk ps) (hk1 : key ≠ b!"access_token")
    (hk2 : key ≠ b!"token_type") :
    (f.requireAccessToken = true ∧ ∃ tk, t = [⟨.createOAuthToken info false, (some tk, none)⟩] ∧ atk = tk.accessToken ∧
      valuesOf ps b!"access_token" = [atk] ∧ valuesOf ps b!"token_type" = [b!"bearer"] ∧
      valuesOf ps key = [itoa tk.accessTokenExpiresIn]) ∨
    (f.requireAccessToken = false ∧ t = [] ∧ atk = [] ∧ valuesOf ps b!"access_token" = []) := by
  rcases h with ⟨h1, tk, rfl, rfl, rfl⟩ | ⟨h1, rfl, rfl, rfl⟩
  · refine .inl ⟨h1, tk, rfl, rfl, ?_, ?_, ?_⟩
    · rw [valuesOf_cons_eq, valuesOf_cons_ne (by decide), valuesOf_cons_ne hk1]; rfl
    · rw [valuesOf_cons_ne (by decide), valuesOf_cons_eq, valuesOf_cons_ne hk2]; rfl
    · rw [valuesOf_cons_ne (Ne.symm hk1), valuesOf_cons_ne (Ne.symm hk2), valuesOf_cons_eq]; rfl
  · exact .inr ⟨h1, rfl, rfl, rfl⟩

theorem idPart_calls {clnt} {authTime : Int64} {atk code t ps} (h : IdPart policy lib clnt info f req authTime atk code t ps) :
    ∀ e ∈ t, ∀ i b, e.q ≠ .createOAuthToken i b := by
  rcases h with ⟨_, c, i, iss, now, idt, _, _, rfl, rfl, _⟩ | ⟨_, rfl, rfl⟩
  · intro e he
    simp at he
    rcases he with rfl | rfl <;> simp
  · simp

theorem contents (h : CompleteParts policy lib info req f w ps) : Contents policy lib info req f w ps := by
  unfold CompleteParts at h
  cases hty : f.type <;> rw [hty] at h <;> dsimp only at h
  · obtain ⟨code, authTime, rfl, rfl⟩ := h
    have h1 : ∀ k, b!"code" ≠ k → b!"state" ≠ k → valuesOf ((b!"code", code) :: stateParam req) k = [] := by
      intro k h1 h2
      rw [valuesOf_cons_ne h1, stateParam_other h2]
    constructor
    · intro _
      refine ⟨code, authTime, by rw [valuesOf_cons_eq, stateParam_other (by decide)], by simp, by simp, ?_⟩
      simp [Request.toSession]
    · intro h; rw [hty] at h; cases h
    · intro h; exact absurd hty h
    · intro _
      refine ⟨h1 _ (by decide) (by decide), ?_⟩
      intro e he
      simp at he
      rcases he with rfl | rfl | rfl <;> simp
    · intro h; exact absurd hty h
    · intro _; exact h1 _ (by decide) (by decide)
  · obtain ⟨clnt, t1, atk, p1, authTime, t2, p2, htok, hid, rfl, rfl⟩ := h
    have hv := tokenPart_values htok (by decide) (by decide)
    have hval : ∀ k, b!"state" ≠ k → b!"scope" ≠ k →
        valuesOf (stateParam req ++ scopeParam req ++ p1 ++ p2) k = valuesOf p1 k ++ valuesOf p2 k := by
      intro k h1 h2
      rw [valuesOf_append, valuesOf_append, valuesOf_append, stateParam_other h1, scopeParam_other h2]; simp
    have hcode : valuesOf (stateParam req ++ scopeParam req ++ p1 ++ p2) b!"code" = [] := by
      rw [hval _ (by decide) (by decide), tokenPart_other htok (by decide) (by decide) (by decide),
        idPart_other hid (by decide)]; rfl
    have hat : valuesOf (stateParam req ++ scopeParam req ++ p1 ++ p2) b!"access_token" = valuesOf p1 b!"access_token" := by
      rw [hval _ (by decide) (by decide), idPart_other hid (by decide), List.append_nil]
    have hidv : valuesOf (stateParam req ++ scopeParam req ++ p1 ++ p2) b!"id_token" = valuesOf p2 b!"id_token" := by
      rw [hval _ (by decide) (by decide), tokenPart_other htok (by decide) (by decide) (by decide)]; rfl
    constructor
    · intro h; rw [hty] at h; rcases h with h | h <;> cases h
    · intro _; exact hcode
    · intro _ hreq
      rcases hv with ⟨_, tk, rfl, rfl, h1, h2, _⟩ | ⟨h1, _⟩
      · refine ⟨tk, by simp, by rw [hat, h1], ?_, fun h => by rw [hty] at h; cases h⟩
        rw [hval _ (by decide) (by decide), idPart_other hid (by decide), h2]; rfl
      · rw [hreq] at h1; cases h1
    · intro h
      rcases hv with ⟨h1, _⟩ | ⟨h1, rfl, _, h2⟩
      · rcases h with h | h
        · rw [hty] at h; cases h
        · rw [h1] at h; cases h
      · refine ⟨by rw [hat, h2], ?_⟩
        intro e he
        simp only [List.nil_append, List.mem_cons] at he
        rcases he with rfl | rfl | he
        · simp
        · simp
        · exact idPart_calls hid e he
    · intro _ hreq
      rcases hid with ⟨_, c, i, iss, now, idt, rfl, rfl, rfl, rfl, hg⟩ | ⟨h1, _⟩
      · dsimp only at hg
        have hats : valuesOf p1 b!"access_token" = [atk] ∨ (valuesOf p1 b!"access_token" = [] ∧ atk = []) := by
          rcases hv with ⟨_, _, _, _, h1, _⟩ | ⟨_, _, h1, h2⟩
          · exact .inl h1
          · exact .inr ⟨h2, h1⟩
        obtain ⟨claims, h1, h2⟩ := genForImplicit_signed hg hats
        refine ⟨c, i, iss, now, authTime, idt, claims, by simp, rfl, by simp, by simp, by simp, ?_, h1, ?_⟩
        · rw [hidv]; rfl
        · rw [hat, hcode]; exact h2
      · rw [hreq] at h1; cases h1
    · intro h
      rcases hid with ⟨h1, _⟩ | ⟨_, _, rfl⟩
      · rcases h with h | h
        · rw [hty] at h; cases h
        · rw [h1] at h; cases h
      · rw [hidv]; rfl
  · obtain ⟨code, authTime, clnt, t1, atk, p1, t2, p2, htok, hid, rfl, rfl⟩ := h
    have hv := tokenPart_values htok (by decide) (by decide)
    have hval : ∀ k, b!"code" ≠ k → b!"state" ≠ k → b!"scope" ≠ k →
        valuesOf ((b!"code", code) :: (stateParam req ++ scopeParam req ++ p1 ++ p2)) k = valuesOf p1 k ++ valuesOf p2 k := by
      intro k h0 h1 h2
      rw [valuesOf_cons_ne h0, valuesOf_append, valuesOf_append, valuesOf_append, stateParam_other h1, scopeParam_other h2]; simp
    have hcode : valuesOf ((b!"code", code) :: (stateParam req ++ scopeParam req ++ p1 ++ p2)) b!"code" = [code] := by
      rw [valuesOf_cons_eq, valuesOf_append, valuesOf_append, valuesOf_append, stateParam_other (by decide),
        scopeParam_other (by decide), tokenPart_other htok (by decide) (by decide) (by decide),
        idPart_other hid (by decide)]; rfl
    have hat : valuesOf ((b!"code", code) :: (stateParam req ++ scopeParam req ++ p1 ++ p2)) b!"access_token" =
        valuesOf p1 b!"access_token" := by
      rw [hval _ (by decide) (by decide) (by decide), idPart_other hid (by decide), List.append_nil]
    have hidv : valuesOf ((b!"code", code) :: (stateParam req ++ scopeParam req ++ p1 ++ p2)) b!"id_token" =
        valuesOf p2 b!"id_token" := by
      rw [hval _ (by decide) (by decide) (by decide), tokenPart_other htok (by decide) (by decide) (by decide)]; rfl
    constructor
    · intro _
      refine ⟨code, authTime, hcode, by simp, by simp, ?_⟩
      simp [Request.toSession]
    · intro h; rw [hty] at h; cases h
    · intro _ hreq
      rcases hv with ⟨_, tk, rfl, rfl, h1, h2, h3⟩ | ⟨h1, _⟩
      · refine ⟨tk, by simp, by rw [hat, h1], ?_, fun _ => ?_⟩
        · rw [hval _ (by decide) (by decide) (by decide), idPart_other hid (by decide), h2]; rfl
        · rw [hval _ (by decide) (by decide) (by decide), idPart_other hid (by decide), h3]; rfl
      · rw [hreq] at h1; cases h1
    · intro h
      rcases hv with ⟨h1, _⟩ | ⟨h1, rfl, _, h2⟩
      · rcases h with h | h
        · rw [hty] at h; cases h
        · rw [h1] at h; cases h
      · refine ⟨by rw [hat, h2], ?_⟩
        intro e he
        simp only [List.nil_append, List.mem_cons] at he
        rcases he with rfl | rfl | rfl | rfl | he
        · simp
        · simp
        · simp
        · simp
        · exact idPart_calls hid e he
    · intro _ hreq
      rcases hid with ⟨_, c, i, iss, now, idt, rfl, rfl, rfl, rfl, hg⟩ | ⟨h1, _⟩
      · dsimp only at hg
        have hats : valuesOf p1 b!"access_token" = [atk] ∨ (valuesOf p1 b!"access_token" = [] ∧ atk = []) := by
          rcases hv with ⟨_, _, _, _, h1, _⟩ | ⟨_, _, h1, h2⟩
          · exact .inl h1
          · exact .inr ⟨h2, h1⟩
        obtain ⟨claims, h1, h2⟩ := genForHybrid_signed hg hats
        refine ⟨c, i, iss, now, authTime, idt, claims, by simp, rfl, by simp, by simp, by simp, ?_, h1, ?_⟩
        · rw [hidv]; rfl
        · rw [hat, hcode]; exact h2
      · rw [hreq] at h1; cases h1
    · intro h
      rcases hid with ⟨h1, _⟩ | ⟨_, _, rfl⟩
      · rcases h with h | h
        · rw [hty] at h; cases h
        · rw [h1] at h; cases h
      · rw [hidv]; rfl

end Goidc
