import Verif.Lemmas.Jwt
import Verif.Props.AuthComplete
import Verif.Lemmas.Hint

/-! # C62: ID tokens as hints -/

namespace Goidc.Props

open Spec AuthzEndpoint

variable {policy : Policy} {lib : Lib} {r : Req} {t pre : List Event} {resp : HttpResp} {o : Outcome Bool}

/-- `tok` is an ID token made by one of the three generators of package id_token at time `iat`, valid
until `exp`. -/
def Minted (lib : Lib) (alg : GoStr) (key : Option Key) (sub : GoStr) (iat exp : Int64) (tok : GoStr) : Prop :=
  ∃ kid iss aud nonce expiresIn authTime, exp = iat + expiresIn ∧
    (IdToken.gen lib alg key kid iss aud sub nonce expiresIn authTime iat = some tok ∨
     (∃ atk, IdToken.genForImplicit lib alg key kid iss aud sub nonce expiresIn authTime atk iat = some tok) ∨
     ∃ atk code, IdToken.genForHybrid lib alg key kid iss aud sub nonce expiresIn authTime atk code iat = some tok)

/-- The JWT library decodes a token it signed with `k` to the same algorithm and claims, and verifies it. -/
def ReadsBack (lib : Lib) (alg k tok : GoStr) : Prop :=
  ∀ kid claims, SignedBy lib alg kid claims (some (.bytes k)) tok →
    ∃ tk, lib.jwtDecode tok = some tk ∧ tk.alg = some alg ∧ tk.claims = claims ∧ lib.sigOk alg tok k = true

theorem minted_raw {alg key sub iat exp tok} (h : Minted lib alg key sub iat exp tok) :
    ∃ kid iss aud nonce authTime ah ch,
      IdToken.rawGen lib alg key kid iss aud sub nonce exp authTime iat ah ch = some tok := by
  obtain ⟨kid, iss, aud, nonce, ei, at_, rfl, h | ⟨atk, h⟩ | ⟨atk, code, h⟩⟩ := h
  · exact ⟨kid, iss, aud, nonce, at_, [], [], h⟩
  · unfold IdToken.genForImplicit at h
    split at h
    · cases h
    · exact ⟨kid, iss, aud, nonce, at_, _, [], h⟩
  · unfold IdToken.genForHybrid at h
    split at h
    · cases h
    · split at h
      · cases h
      · exact ⟨kid, iss, aud, nonce, at_, _, _, h⟩

theorem find_claims {iss aud sub nonce ah ch : GoStr} {exp at_ iat : Int64} (t : JwtToken)
    (ht : t.claims = IdToken.claims iss aud sub nonce exp at_ iat ah ch) :
    t.claim b!"exp" = some (.float exp) ∧ t.claim b!"sub" = some (.str sub) ∧ t.claim b!"nbf" = none ∧
      (t.claim b!"iat" = none ∨ t.claim b!"iat" = some (.float iat)) := by
  unfold JwtToken.claim
  rw [ht]
  unfold IdToken.claims
  refine ⟨by simp [List.find?_append], by simp [List.find?_append], ?_, ?_⟩
  · by_cases h1 : nonce = [] <;> by_cases h2 : iat ≥ 0 <;> by_cases h3 : at_ ≥ 0 <;>
      by_cases h4 : ah = [] <;> by_cases h5 : ch = [] <;> simp [h1, h2, h3, h4, h5]
  · by_cases h1 : nonce = [] <;> by_cases h2 : iat ≥ 0 <;> by_cases h3 : at_ ≥ 0 <;>
      by_cases h4 : ah = [] <;> by_cases h5 : ch = [] <;> simp [h1, h2, h3, h4, h5]

theorem goodHint {clnt : Client} {alg k sub iat exp tok} (hm : Minted lib alg (some (.bytes k)) sub iat exp tok)
    (hr : ReadsBack lib alg k tok) (hk : clnt.idTokenKey = some (.bytes k)) :
    GoodHint lib clnt tok (fun w => iat ≤ w ∧ w ≤ exp) sub := by
  obtain ⟨kid, iss, aud, nonce, at_, ah, ch, h⟩ := minted_raw hm
  unfold IdToken.rawGen at h
  split at h
  · cases h
  · rename_i fam hfam
    have hs := signed_iff claims_nodup h
    obtain ⟨tk, h1, h2, h3, h4⟩ := hr _ _ hs
    obtain ⟨c1, c2, c3, c4⟩ := find_claims tk h3
    have hf : Jwt.family alg = some .hmac := by
      cases hs; exact family_hmac.2 (by assumption)
    refine ⟨tk, h1, by rw [h2]; simp [hf], by rw [c1]; rfl, by unfold JwtToken.claimStr; rw [c2], ?_, ?_⟩
    · rw [h2, hk]
      simp [Jwt.verifies, hf, h4]
    · rintro w ⟨w1, w2⟩
      rw [c1, c3]
      refine ⟨by simp [Jwt.expOk, w2], ?_, rfl⟩
      rcases c4 with c4 | c4 <;> rw [c4] <;> simp [Jwt.notBeforeOk, w1]

/-- C62, for clients whose ID tokens are signed with a shared secret: when the `id_token_hint` is an ID
token goidc minted with that secret, and the application's clients all have it as their key, then in
every run in which the hint is examined (the library reads the clock) at a time between issue and expiry,
it is not refused: the application is asked whether the login user is the token's subject.  What is
missing for the full claim are the asymmetric keys: see `C62_false`. -/
theorem C62_hint_accepted_partial {alg k sub iat exp w} (h : Runs (handleRequest policy lib r) t o)
    (hk : ∀ c e, ⟨.findClientById (r.formValue b!"client_id"), (some c, e)⟩ ∈ t → c.idTokenKey = some (.bytes k))
    (hm : Minted lib alg (some (.bytes k)) sub iat exp (r.formValue b!"id_token_hint"))
    (hr : ReadsBack lib alg k (r.formValue b!"id_token_hint"))
    (hw : ⟨.wallNow, w⟩ ∈ t) (h1 : iat ≤ w) (h2 : w ≤ exp) :
    ∃ x, ⟨.loginUserIsMatchedToSubject sub, x⟩ ∈ t :=
  handleRequest_hint h (fun c e hc => goodHint hm hr (hk c e hc)) w ⟨h1, h2⟩ hw

/-- C62 fails for RSA and ECDSA keys: the key that signs a client's ID tokens is a private key, and
verification with a private key always fails.  So no silent request under the ID-token-hint policy ever
succeeds for such a client, whatever the hint, the library, the application and the clock. -/
theorem C62_never_asymmetric (hp : r.formValue b!"prompt" = b!"none")
    (hc : ∀ c, FoundClient r c pre → c.nonePromptPolicy = .allowIfIdTokenHintMatched ∧
      ∃ k, c.idTokenKey = some (.rsaPriv k) ∨ c.idTokenKey = some (.ecPriv k)) :
    ¬ Runs (handleRequest policy lib r) (pre ++ [wrote resp]) (.ok true) := by
  intro h
  obtain ⟨clnt, f, info, scope, h1, _, _, h2, _⟩ := C34_silent h hp
  obtain ⟨hpol, k, hk⟩ := hc clnt h1
  have h4 := h2 (by rw [hpol]; simp)
  unfold SilentlyAllowed at h4
  rw [hpol] at h4
  obtain ⟨sub, ⟨tk, key, now, _, h5, h6, _⟩, _⟩ := h4
  rcases hk with hk | hk <;> (rw [hk] at h5; cases h5; cases h6)

/-! ## Samples -/

theorem returnedTrue_ok {α : Type} {x : List Event × Outcome Bool × α} (h : returnedTrue x = true) : x.2.1 = .ok true := by
  obtain ⟨a, o, b⟩ := x
  rcases o with _ | _
  all_goals (unfold returnedTrue at h; split at h <;> simp_all)

def hintClaims : List (GoStr × JVal) := IdToken.claims b!"https://issuer" b!"client" b!"subject" [] 1600 (-1) 900 [] []

/-- A library that signs and reads back one token. -/
def hintLib : Lib :=
  { Sample.lib with
    jwtDecode := fun s => if s = b!"tok" then some { Sample.jwt with claims := hintClaims } else none
    jwtDecode_raw := by
      intro s t h
      split at h
      · rename_i hs; cases h; exact hs.symm
      · cases h
    sign := fun _ _ claims _ => if claims = hintClaims then b!"tok" else b!"x" }

theorem hint_minted : Minted hintLib b!"HS256" (some (.bytes b!"key")) b!"subject" 900 1600 b!"tok" :=
  ⟨b!"k1", b!"https://issuer", b!"client", [], 700, -1, by decide, .inl (by decide +kernel)⟩

theorem hint_readsBack : ReadsBack hintLib b!"HS256" b!"key" b!"tok" := by
  intro kid claims hs
  refine ⟨_, rfl, rfl, ?_, rfl⟩
  generalize hk : some (Key.bytes b!"key") = key at hs
  generalize ht : b!"tok" = tok at hs
  cases hs with
  | hmac k hf =>
    have ht' : b!"tok" = if claims = hintClaims then b!"tok" else b!"x" := ht
    split at ht'
    · rename_i h; exact h.symm
    · cases ht'
  | rsa k hf => cases hk
  | ecdsa k hf => cases hk
  | unsafeNone hf => cases hk

/-- The hint policy. -/
def hintWorld : Sample.World :=
  { consentedWorld with client := (some { Sample.client with nonePromptPolicy := .allowIfIdTokenHintMatched }, none) }

def hintGet : Req := authGet [(b!"response_type", b!"code"), (b!"scope", b!"openid"), (b!"prompt", b!"none"),
  (b!"id_token_hint", b!"tok")]

/-- The hypotheses of `C62_hint_accepted_partial` are met by a run that goes on to succeed. -/
example : ∃ pre resp, Runs (handleRequest .default hintLib hintGet) (pre ++ [wrote resp]) (.ok true) ∧
    (∀ c e, ⟨.findClientById (hintGet.formValue b!"client_id"), (some c, e)⟩ ∈ pre ++ [wrote resp] →
      c.idTokenKey = some (.bytes b!"key")) ∧
    hintGet.formValue b!"id_token_hint" = b!"tok" ∧ ⟨.wallNow, 1000⟩ ∈ pre := by
  have hans := exec_answers hintWorld.answer (handleRequest .default hintLib hintGet)
  have hr := hintWorld.runs (handleRequest .default hintLib hintGet)
  have htr : (hintWorld.run (handleRequest .default hintLib hintGet)).2.1 = .ok true :=
    returnedTrue_ok (by decide +kernel)
  have hany : (hintWorld.run (handleRequest .default hintLib hintGet)).1.any
      (fun e => match e.q with | .wallNow => true | _ => false) = true := by decide +kernel
  rw [htr] at hr
  cases hl : lastWrite (hintWorld.run (handleRequest .default hintLib hintGet)).1 with
  | none => exact absurd hl (by decide +kernel)
  | some resp =>
    obtain ⟨pre, hp⟩ := lastWrite_eq hl
    rw [hp] at hr hany
    change ∀ e ∈ (hintWorld.run (handleRequest .default hintLib hintGet)).1, e.r = hintWorld.answer e.q at hans
    rw [hp] at hans
    refine ⟨pre, resp, hr, fun c e hc => ?_, by decide +kernel, ?_⟩
    · have := hans _ hc
      obtain ⟨h1, _⟩ := Prod.mk.inj this
      obtain rfl := Option.some.inj h1
      rfl
    · obtain ⟨⟨q, x⟩, he, hq⟩ := List.any_eq_true.1 hany
      split at hq
      · rename_i h'
        have hx := hans _ he
        dsimp only at h'
        subst h'
        rcases List.mem_append.1 he with he | he
        · obtain rfl : x = 1000 := hx
          exact he
        · simp at he
      · cases hq

/-- A client whose ID tokens are signed with an RSA key. -/
def rsaClient : Client :=
  { Sample.client with idTokenAlg := b!"RS256", idTokenKey := some (.rsaPriv b!"key"),
                       nonePromptPolicy := .allowIfIdTokenHintMatched }

/-- C62 fails: goidc mints an ID token for an RSA client, and that client can never use it (nor anything
else) as a hint. -/
theorem C62_false : ∃ (clnt : Client) (r : Req), r.formValue b!"prompt" = b!"none" ∧
    Minted hintLib clnt.idTokenAlg clnt.idTokenKey b!"subject" 900 1600 (r.formValue b!"id_token_hint") ∧
    clnt.nonePromptPolicy = .allowIfIdTokenHintMatched ∧
    ∀ policy lib pre resp, (∀ c, FoundClient r c pre → c = clnt) →
      ¬ Runs (handleRequest policy lib r) (pre ++ [wrote resp]) (.ok true) := by
  refine ⟨rsaClient, hintGet, by decide +kernel,
    ⟨b!"k1", b!"https://issuer", b!"client", [], 700, -1, by decide, .inl (by decide +kernel)⟩, rfl, ?_⟩
  intro policy lib pre resp hc
  exact C62_never_asymmetric (by decide +kernel) fun c hf => by
    obtain rfl := hc c hf
    exact ⟨rfl, _, .inl rfl⟩

end Goidc.Props
