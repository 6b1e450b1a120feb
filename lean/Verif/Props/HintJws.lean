import Verif.Props.Jws
import Verif.Props.Hint

/-! # C62 on golang-jwt -/

namespace Goidc.Props

open Spec AuthzEndpoint

variable {p : Prims} {policy : Policy} {r : Req} {t : List Event} {o : Outcome Bool}

theorem minted_claims {iss aud sub nonce ah ch : GoStr} {exp at_ iat : Int64} :
    (b!"exp", Goidc.JVal.float exp) ∈ IdToken.claims iss aud sub nonce exp at_ iat ah ch ∧
    (b!"sub", Goidc.JVal.str sub) ∈ IdToken.claims iss aud sub nonce exp at_ iat ah ch ∧
    (∀ v, (b!"nbf", v) ∉ IdToken.claims iss aud sub nonce exp at_ iat ah ch) ∧
    (∀ v, (b!"iat", v) ∈ IdToken.claims iss aud sub nonce exp at_ iat ah ch → v = .float iat) ∧
    ∀ kv ∈ IdToken.claims iss aud sub nonce exp at_ iat ah ch, Jws.Plain kv.2 ∧ ∀ c ∈ kv.1, c.toNat < 128 := by
  unfold IdToken.claims
  refine ⟨by simp, by simp, ?_, ?_, ?_⟩
  · by_cases h1 : nonce = [] <;> by_cases h2 : iat ≥ 0 <;> by_cases h3 : at_ ≥ 0 <;>
      by_cases h4 : ah = [] <;> by_cases h5 : ch = [] <;> simp [h1, h2, h3, h4, h5]
  · by_cases h1 : nonce = [] <;> by_cases h2 : iat ≥ 0 <;> by_cases h3 : at_ ≥ 0 <;>
      by_cases h4 : ah = [] <;> by_cases h5 : ch = [] <;> simp [h1, h2, h3, h4, h5]
  · by_cases h1 : nonce = [] <;> by_cases h2 : iat ≥ 0 <;> by_cases h3 : at_ ≥ 0 <;>
      by_cases h4 : ah = [] <;> by_cases h5 : ch = [] <;> simp [h1, h2, h3, h4, h5, Jws.Plain]

/-- An ID token made with golang-jwt under a shared secret is a good hint. -/
theorem goodHint_jws {clnt : Client} {alg k sub tok : GoStr} {iat exp : Int64}
    (hm : Minted (Jws.lib p) alg (some (.bytes k)) sub iat exp tok) (hk : clnt.idTokenKey = some (.bytes k)) (hv : ValidUtf8 sub)
    (h1 : -2 ^ 53 ≤ iat.toInt ∧ iat.toInt ≤ 2 ^ 53) (h2 : -2 ^ 53 ≤ exp.toInt ∧ exp.toInt ≤ 2 ^ 53) :
    Goidc.GoodHint (Jws.lib p) clnt tok (fun w => iat ≤ w ∧ w ≤ exp) sub := by
  obtain ⟨kid, iss, aud, nonce, at_, ah, ch, h⟩ := minted_raw hm
  unfold IdToken.rawGen at h
  split at h
  · cases h
  · have hs := signed_iff claims_nodup h
    obtain ⟨m1, m2, m3, m4, m5⟩ := minted_claims (iss := iss) (aud := aud) (sub := sub) (nonce := nonce) (ah := ah) (ch := ch)
      (exp := exp) (at_ := at_) (iat := iat)
    obtain ⟨hd, pl, signed, sig, hj, e1, e2, hsig⟩ := signedBy_says hs (fun _ _ => Iff.rfl)
      (fun k v hkv => ⟨(m5 _ hkv).1, valid_ascii (m5 _ hkv).2⟩)
    obtain ⟨tk, d1, d2⟩ := decodesTo (p := p) hj (says_fit e1) (says_fit e2)
    cases hsig with
    | hmac ha hok =>
      have hva : ValidUtf8 alg := by
        have : ∀ a ∈ hmacAlgs, ∀ c ∈ a, c.toNat < 128 := by decide
        exact valid_ascii (this alg ha)
      have halg : tk.alg = some alg := (d2.alg alg).2 (says_str e1 (.inl ⟨rfl, rfl⟩) hva)
      have hf : Jwt.family alg = some .hmac := family_hmac.2 ha
      have c1 : tk.claim b!"exp" = some (.float exp) := by
        obtain ⟨lit, l1, l2⟩ := says_time (p := p) e2 m1 h2
        exact (d2.claim _ _).2 ⟨_, l1, .num l2⟩
      have c2 : tk.claimStr b!"sub" = some sub := (claimStr_iff d2).2 (says_str e2 m2 hv)
      have none_of : ∀ k, (∀ v, (k, v) ∉ IdToken.claims iss aud sub nonce exp at_ iat ah ch) → tk.claim k = none := by
        intro k hno
        cases hc : tk.claim k with
        | none => rfl
        | some v =>
          obtain ⟨j, ⟨l1, l2, hl, _⟩, _⟩ := (d2.claim _ _).1 hc
          obtain ⟨v', hv', _⟩ := e2.only k j (by rw [hl]; simp)
          exact absurd hv' (hno v')
      have c4 : tk.claim b!"iat" = none ∨ tk.claim b!"iat" = some (.float iat) := by
        rcases Classical.em (∃ v, (b!"iat", v) ∈ IdToken.claims iss aud sub nonce exp at_ iat ah ch) with ⟨v, hv⟩ | hno
        · obtain rfl := m4 v hv
          obtain ⟨lit, l1, l2⟩ := says_time (p := p) e2 hv h1
          exact .inr ((d2.claim _ _).2 ⟨_, l1, .num l2⟩)
        · exact .inl (none_of _ fun v hv => hno ⟨v, hv⟩)
      refine ⟨tk, d1, by rw [halg]; simp [hf], by rw [c1]; rfl, c2, ?_, ?_⟩
      · rw [halg, hk]
        have hver : SignatureOk (Jws.lib p) alg tok (.bytes k) := (verified_of hj).2 ⟨ha, p.verify_signature _ _ _ hok⟩
        exact verifies_iff.2 hver
      · rintro w ⟨w1, w2⟩
        rw [c1, none_of _ m3]
        refine ⟨by simp [Jwt.expOk, w2], ?_, rfl⟩
        rcases c4 with c4 | c4 <;> rw [c4] <;> simp [Jwt.notBeforeOk, w1]

/-- C62 on golang-jwt, for clients whose ID tokens are signed with a shared secret: when the `id_token_hint` is an ID
token goidc minted with that secret, and the application's clients all have it as their key, then in
every run in which the hint is examined (the library reads the clock) at a time between issue and expiry,
it is not refused: the application is asked whether the login user is the token's subject.  Nothing is supposed of the
library but what its primitives do.  What is missing for the full claim are the asymmetric keys: see `C62_false`. -/
theorem C62_hint_accepted_jws_partial {alg k sub : GoStr} {iat exp w : Int64} (h : Runs (handleRequest policy (Jws.lib p) r) t o)
    (hk : ∀ c e, ⟨.findClientById (r.formValue b!"client_id"), (some c, e)⟩ ∈ t → c.idTokenKey = some (.bytes k))
    (hm : Minted (Jws.lib p) alg (some (.bytes k)) sub iat exp (r.formValue b!"id_token_hint")) (hv : ValidUtf8 sub)
    (hi : -2 ^ 53 ≤ iat.toInt ∧ iat.toInt ≤ 2 ^ 53) (he : -2 ^ 53 ≤ exp.toInt ∧ exp.toInt ≤ 2 ^ 53)
    (hw : ⟨.wallNow, w⟩ ∈ t) (h1 : iat ≤ w) (h2 : w ≤ exp) :
    ∃ x, ⟨.loginUserIsMatchedToSubject sub, x⟩ ∈ t :=
  handleRequest_hint h (fun c e hc => goodHint_jws hm (hk c e hc) hv hi he) w ⟨h1, h2⟩ hw

/-! ## Sample -/

/-- An ID token of the sample client, made with HMAC-SHA-256. -/
def mintedTok : GoStr :=
  (IdToken.gen (Jws.lib Crypto.prims) b!"HS256" (some (.bytes b!"key")) b!"k1" b!"https://issuer" b!"client" b!"subject" [] 700
    900 900).getD []

def mintedGet : Req := authGet [(b!"response_type", b!"code"), (b!"scope", b!"openid"), (b!"prompt", b!"none"),
  (b!"id_token_hint", mintedTok)]

example : Minted (Jws.lib Crypto.prims) b!"HS256" (some (.bytes b!"key")) b!"subject" 900 1600 mintedTok :=
  ⟨b!"k1", b!"https://issuer", b!"client", [], 700, 900, by decide, .inl (by decide +kernel)⟩

/-- The hypotheses of `C62_hint_accepted_jws_partial` are met by a run that goes on to succeed. -/
example : ∃ pre resp, Runs (handleRequest .default (Jws.lib Crypto.prims) mintedGet) (pre ++ [wrote resp]) (.ok true) ∧
    (∀ c e, ⟨.findClientById (mintedGet.formValue b!"client_id"), (some c, e)⟩ ∈ pre ++ [wrote resp] →
      c.idTokenKey = some (.bytes b!"key")) ∧
    mintedGet.formValue b!"id_token_hint" = mintedTok ∧ ⟨.wallNow, 1000⟩ ∈ pre := by
  have hans := exec_answers hintWorld.answer (handleRequest .default (Jws.lib Crypto.prims) mintedGet)
  have hr := hintWorld.runs (handleRequest .default (Jws.lib Crypto.prims) mintedGet)
  have htr : (hintWorld.run (handleRequest .default (Jws.lib Crypto.prims) mintedGet)).2.1 = .ok true :=
    returnedTrue_ok (by decide +kernel)
  have hany : (hintWorld.run (handleRequest .default (Jws.lib Crypto.prims) mintedGet)).1.any
      (fun e => match e.q with | .wallNow => true | _ => false) = true := by decide +kernel
  rw [htr] at hr
  cases hl : lastWrite (hintWorld.run (handleRequest .default (Jws.lib Crypto.prims) mintedGet)).1 with
  | none => exact absurd hl (by decide +kernel)
  | some resp =>
    obtain ⟨pre, hp⟩ := lastWrite_eq hl
    rw [hp] at hr hany
    change ∀ e ∈ (hintWorld.run (handleRequest .default (Jws.lib Crypto.prims) mintedGet)).1, e.r = hintWorld.answer e.q at hans
    rw [hp] at hans
    refine ⟨pre, resp, hr, fun c e hc => ?_, by decide +kernel, ?_⟩
    · have := hans _ hc
      obtain ⟨h1, _⟩ := Prod.mk.inj this
      obtain rfl := Option.some.inj h1
      rfl
    · obtain ⟨⟨q, x⟩, he, hq⟩ := List.any_eq_true.1 hany
      split at hq
      · rename_i h'
        have hx := hans _ he
        dsimp only at h'
        subst h'
        rcases List.mem_append.1 he with he | he
        · obtain rfl : x = 1000 := hx
          exact he
        · simp at he
      · cases hq

end Goidc.Props
