import Verif.Lemmas.JwsRead
import Verif.Lemmas.Numeral
import Verif.Props.CodeGrant
import Verif.Props.AuthComplete
import Verif.Props.Json
import Verif.Props.Completeness
import Verif.Sample.Crypto

/-! # C95, C96, C97: goidc on golang-jwt -/

namespace Goidc.Props

open Spec TokenEndpoint AuthzEndpoint Goidc.Json

variable {p : Prims} {cfg : TokenCfg} {policy : Policy} {r : Req} {t pre : List Event} {resp : HttpResp} {o : Outcome Unit}

/-! ## C95: what an ID token says -/

/-- A signed token says the claims it was made from. -/
theorem signedBy_says {alg kid : GoStr} {claims : List (GoStr × Goidc.JVal)} {key : Option Key} {tok : GoStr}
    {P : GoStr → Goidc.JVal → Prop} (h : SignedBy (Jws.lib p) alg kid claims key tok) (hc : ∀ k v, (k, v) ∈ claims ↔ P k v)
    (hp : ∀ k v, P k v → Jws.Plain v ∧ ValidUtf8 k) : TokenSays p alg kid key P tok := by
  have h1 : ∀ kv ∈ claims, Jws.Plain kv.2 := fun kv hkv => (hp kv.1 kv.2 ((hc _ _).1 hkv)).1
  have h2 : ∀ kv ∈ claims, ValidUtf8 kv.1 := fun kv hkv => (hp kv.1 kv.2 ((hc _ _).1 hkv)).2
  have hP : (fun k v => (k, v) ∈ claims) = P := by funext k v; exact propext (hc k v)
  have key : ∀ k, (claims.map (·.1)).Nodup → ∃ header payload signed sig, IsJws (Jws.sign p alg kid claims k) header payload signed sig ∧
      SaysExactly header (HeaderClaims alg kid) ∧ SaysExactly payload P ∧
      sig = (if alg = b!"none" then [] else p.signature alg k signed) := by
    intro k hn
    obtain ⟨a, b, c, d, e1, e2, e3, e4⟩ := Jws.sign_isJws p alg kid k claims h1 h2 hn
    rw [hP] at e3
    exact ⟨a, b, c, d, e1, e2, e3, e4⟩
  have hne : ∀ l : List GoStr, alg ∈ l → b!"none" ∉ l → alg ≠ b!"none" := fun l h1 h2 h3 => h2 (h3 ▸ h1)
  cases h with
  | hmac k hn hs ha =>
    obtain ⟨a, b, c, d, e1, e2, e3, rfl⟩ := key k hn
    rw [if_neg (hne _ ha (by decide))] at e1
    exact ⟨a, b, c, _, e1, e2, e3, .hmac ha hs⟩
  | rsa k hn hs ha =>
    obtain ⟨a, b, c, d, e1, e2, e3, rfl⟩ := key k hn
    rw [if_neg (hne _ ha (by decide))] at e1
    exact ⟨a, b, c, _, e1, e2, e3, .rsa ha hs⟩
  | ecdsa k hn hs ha =>
    obtain ⟨a, b, c, d, e1, e2, e3, rfl⟩ := key k hn
    rw [if_neg (hne _ ha (by decide))] at e1
    exact ⟨a, b, c, _, e1, e2, e3, .ecdsa ha hs⟩
  | unsafeNone hn ha =>
    obtain ⟨a, b, c, d, e1, e2, e3, rfl⟩ := key [] hn
    rw [if_pos ha] at e1
    exact ⟨a, b, c, _, e1, e2, e3, .unsafeNone ha⟩

theorem code_claims_plain {iss aud sub nonce : GoStr} {exp iat at_ : Int64} :
    ∀ k v, CodeIdTokenClaims iss aud sub nonce exp iat at_ k v → Jws.Plain v ∧ ValidUtf8 k := by
  rintro k v (⟨rfl, rfl⟩ | ⟨rfl, rfl⟩ | ⟨rfl, rfl⟩ | ⟨rfl, rfl⟩ | ⟨rfl, _, rfl⟩ | ⟨rfl, _, rfl⟩ | ⟨rfl, _, rfl⟩) <;>
    exact ⟨trivial, valid_ascii (by decide)⟩

theorem front_claims_plain {lib : Lib} {alg iss aud sub nonce : GoStr} {exp iat at_ : Int64} {ats cs : List GoStr} :
    ∀ k v, FrontIdTokenClaims lib alg iss aud sub nonce exp iat at_ ats cs k v → Jws.Plain v ∧ ValidUtf8 k := by
  rintro k v (h | ⟨rfl, _, _, _, _, _, rfl⟩ | ⟨rfl, _, _, _, _, rfl⟩)
  · exact code_claims_plain k v h
  · exact ⟨trivial, valid_ascii (by decide)⟩
  · exact ⟨trivial, valid_ascii (by decide)⟩

theorem b64Char_ascii : ∀ n < 64, (b64Char true n).toNat < 128 := by decide

theorem base64url_ascii (s : GoStr) : ∀ c ∈ base64url s, c.toNat < 128 := by
  intro c hc
  rw [← Jws.encodeSegment_spec, Jws.encodeSegment_raw] at hc
  obtain ⟨n, hn, rfl⟩ := b64Raw_mem true s c hc
  exact b64Char_ascii n hn

theorem isJws_valid {tok : GoStr} {hd pl : List (GoStr × Spec.JVal)} {signed sig : GoStr} (h : IsJws tok hd pl signed sig) :
    ValidUtf8 tok ∧ tok ≠ [] := by
  obtain ⟨a, b, _, _, rfl, rfl⟩ := h
  refine ⟨valid_ascii fun c hc => ?_, by simp⟩
  simp only [List.mem_append, List.mem_cons] at hc
  rcases hc with (hc | rfl | hc) | rfl | hc
  · exact base64url_ascii _ c hc
  · decide
  · exact base64url_ascii _ c hc
  · decide
  · exact base64url_ascii _ c hc

/-- The ID token in the answer of the token endpoint. -/
theorem response_id_token (res : Response) (hv : ValidUtf8 res.idToken) (hne : res.idToken ≠ []) :
    ∃ members, JsonText res.json (.obj members) ∧ ∀ j, (b!"id_token", j) ∈ members ↔ j = .str res.idToken := by
  have h := jsonText_of_raw (robj_join _ (by simp [responseFields]) (response_ok res))
  rw [← response_json] at h
  have k1 : unquote (rawOf b!"token_type") = b!"token_type" := by decide +kernel
  have k2 : unquote (rawOf b!"access_token") = b!"access_token" := by decide +kernel
  have k3 : unquote (rawOf b!"expires_in") = b!"expires_in" := by decide +kernel
  have k4 : unquote (rawOf b!"refresh_token") = b!"refresh_token" := by decide +kernel
  have k5 : unquote (rawOf b!"scope") = b!"scope" := by decide +kernel
  have k6 : unquote (rawOf b!"id_token") = b!"id_token" := by decide +kernel
  refine ⟨_, h, fun j => ?_⟩
  rw [membersValue_map]
  unfold responseFields
  rw [if_neg hne]
  split <;> simp [Field.ofStr, Field.ofInt, k1, k2, k3, k4, k5, k6, value_str hv]

/-- C95: when the authorization's scope has `openid`, the answer to a code exchange is a JSON object whose
`id_token` is a JWS: its header says the algorithm, the type and the key id, its payload says exactly the claims,
each once, whatever bytes the nonce and the subject consist of, and its signature is made with the client's key
over these two parts. -/
theorem C95_code (hreg : Registered cfg r (Grant.authorizationCode (Jws.lib p)))
    (h : Steps (handler cfg (Jws.lib p) r) (pre ++ [wrote resp])) (h200 : resp.status = 200) :
    ∃ c sess info now,
      Authenticated cfg (Jws.lib p) r c pre ∧
      ⟨.findAuthSessionByCode (r.formValue b!"code"), (some sess, none)⟩ ∈ pre ∧
      ⟨.findActiveAuthInfoById sess.authId, (some info, none)⟩ ∈ pre ∧ ⟨.now, now⟩ ∈ pre ∧
      ∀ ws, Words info.scope ws → b!"openid" ∈ ws → ∃ iss tok members, ⟨.issuer, iss⟩ ∈ pre ∧
        JsonText resp.body (.obj members) ∧ (∀ j, (b!"id_token", j) ∈ members ↔ j = .str tok) ∧
        TokenSays p c.idTokenAlg c.idTokenKeyId c.idTokenKey (CodeIdTokenClaims iss c.id info.subject sess.nonce
          (now + sess.idTokenExpiresIn) now sess.authTime) tok := by
  obtain ⟨c, sess, info, now, res, h1, h2, h3, h4, h5, h6⟩ := C14_id_token hreg h h200
  refine ⟨c, sess, info, now, h1, h2, h3, (h4 now).2 rfl, fun ws hw ho => ?_⟩
  obtain ⟨iss, claims, h7, h8, h9⟩ := (h6 ws hw).2 ho
  have h10 := signedBy_says h8 h9 code_claims_plain
  obtain ⟨hv, hne⟩ : ValidUtf8 res.idToken ∧ res.idToken ≠ [] := by
    obtain ⟨_, _, _, _, h11, _⟩ := h10
    exact isJws_valid h11
  obtain ⟨members, m1, m2⟩ := response_id_token res hv hne
  exact ⟨iss, res.idToken, members, h7, h5 ▸ m1, m2, h10⟩

theorem frontParts_says {info : Option AuthInfo} {clientId nonce : GoStr} {wc wt wi : Prop} {ps : Params}
    (h : FrontParts policy (Jws.lib p) info clientId nonce wc wt wi pre ps) (hi : wi) :
    ∃ c i iss now authTime tok, ⟨.findClientById clientId, (some c, none)⟩ ∈ pre ∧ info = some i ∧ ⟨.issuer, iss⟩ ∈ pre ∧
      ⟨.now, now⟩ ∈ pre ∧ ⟨.getAuthTime, some authTime⟩ ∈ pre ∧ valuesOf ps b!"id_token" = [tok] ∧
      TokenSays p c.idTokenAlg c.idTokenKeyId c.idTokenKey (FrontIdTokenClaims (Jws.lib p) c.idTokenAlg iss i.clientId i.subject
        nonce (now + policy.idTokenExpiresIn) now authTime (valuesOf ps b!"access_token") (valuesOf ps b!"code")) tok := by
  rcases h.idToken with ⟨_, c, i, iss, now, at_, idt, claims, h1, h2, h3, h4, h5, h6, h7, h8⟩ | ⟨hn, _⟩
  · exact ⟨c, i, iss, now, at_, idt, h1, h2, h3, h4, h5, h6, signedBy_says h7 h8 front_claims_plain⟩
  · exact absurd hi hn

/-- C95 for `HandleRequest`: when the response type has `id_token`, what is delivered is such a JWS. -/
theorem C95_handle (h : Runs (handleRequest policy (Jws.lib p) r) (pre ++ [wrote resp]) (.ok true)) {ws : List GoStr}
    (hw : Words (r.formValue b!"response_type") ws) (hi : b!"id_token" ∈ ws) :
    ∃ ps ch c uid info iss now authTime tok, Delivers resp (r.formValue b!"redirect_uri") ps ch ∧
      ⟨.getLoginUserId, some uid⟩ ∈ pre ∧
      ⟨.findAuthInfoByUserIdAndClientId uid (r.formValue b!"client_id"), (some info, none)⟩ ∈ pre ∧
      ⟨.findClientById (r.formValue b!"client_id"), (some c, none)⟩ ∈ pre ∧ ⟨.issuer, iss⟩ ∈ pre ∧ ⟨.now, now⟩ ∈ pre ∧
      ⟨.getAuthTime, some authTime⟩ ∈ pre ∧ valuesOf ps b!"id_token" = [tok] ∧
      TokenSays p c.idTokenAlg c.idTokenKeyId c.idTokenKey (FrontIdTokenClaims (Jws.lib p) c.idTokenAlg iss info.clientId
        info.subject (r.formValue b!"nonce") (now + policy.idTokenExpiresIn) now authTime (valuesOf ps b!"access_token")
        (valuesOf ps b!"code")) tok := by
  obtain ⟨ps, ch, uid, info, h1, h2, h3, h4⟩ := C41_handle h hw
  obtain ⟨c, i, iss, now, at_, tok, k1, k2, k3, k4, k5, k6, k7⟩ := frontParts_says h4 hi
  cases k2
  exact ⟨ps, ch, c, uid, info, iss, now, at_, tok, h1, h2, h3, k1, k3, k4, k5, k6, k7⟩

/-- C95 for `CompleteRequest`: when the continued request asks for an ID token, what is delivered is such a JWS. -/
theorem C95_complete (h : Runs (completeRequest policy (Jws.lib p) r) (pre ++ [wrote resp]) (.ok true)) :
    ∃ req f ps ch uid info, ⟨.continue_, some (some req)⟩ ∈ pre ∧ req.flow = some f ∧
      Delivers resp req.redirectURI ps ch ∧ ⟨.getLoginUserId, some uid⟩ ∈ pre ∧
      ⟨.createOrUpdateAuthInfo uid req.clientId req.scope, (info, none)⟩ ∈ pre ∧
      (f.type ≠ .authorizationCode → f.requireIdToken = true → ∃ c i iss now authTime tok,
        ⟨.findClientById req.clientId, (some c, none)⟩ ∈ pre ∧ info = some i ∧ ⟨.issuer, iss⟩ ∈ pre ∧
        ⟨.now, now⟩ ∈ pre ∧ ⟨.getAuthTime, some authTime⟩ ∈ pre ∧ valuesOf ps b!"id_token" = [tok] ∧
        TokenSays p c.idTokenAlg c.idTokenKeyId c.idTokenKey (FrontIdTokenClaims (Jws.lib p) c.idTokenAlg iss i.clientId
          i.subject req.nonce (now + policy.idTokenExpiresIn) now authTime (valuesOf ps b!"access_token")
          (valuesOf ps b!"code")) tok) := by
  obtain ⟨req, f, ps, ch, uid, info, h1, h2, h3, h4, h5, h6⟩ := C41_complete h
  exact ⟨req, f, ps, ch, uid, info, h1, h2, h3, h4, h5, fun a b => frontParts_says h6 ⟨a, b⟩⟩

/-- C95: a JWS can be read in one way only. -/
theorem C95_unambiguous {tok : GoStr} {h1 p1 h2 p2 : List (GoStr × Spec.JVal)} {s1 g1 s2 g2 : GoStr}
    (a : IsJws tok h1 p1 s1 g1) (b : IsJws tok h2 p2 s2 g2) : h1 = h2 ∧ p1 = p2 ∧ s1 = s2 ∧ g1 = g2 :=
  Jws.isJws_unique a b

/-! ## C96: what an accepted assertion says -/

theorem verified_of {alg tok : GoStr} {key : Key} {hd pl : List (GoStr × Spec.JVal)} {signed sig : GoStr}
    (hj : IsJws tok hd pl signed sig) : SignatureOk (Jws.lib p) alg tok key ↔ Verified p alg signed sig key := by
  have hne : ∀ l : List GoStr, alg ∈ l → b!"none" ∉ l → alg ≠ b!"none" := fun l h1 h2 h3 => h2 (h3 ▸ h1)
  have go : ∀ (l : List GoStr) (k : GoStr), b!"none" ∉ l →
      ((alg ∈ l ∧ Jws.sigOk p alg tok k = true) ↔ (alg ∈ l ∧ p.verify alg k signed sig = true)) := by
    intro l k hl
    constructor <;> rintro ⟨h1, h2⟩ <;> refine ⟨h1, ?_⟩
    · rwa [Jws.sigOk_jws hj (hne l h1 hl)] at h2
    · rwa [Jws.sigOk_jws hj (hne l h1 hl)]
  cases key with
  | bytes k => exact go _ k (by decide)
  | rsaPub k => exact go _ k (by decide)
  | ecPub k => exact go _ k (by decide)
  | unsafeNone =>
    simp only [SignatureOk, Verified]
    refine and_congr_right fun ha => ?_
    obtain ⟨a, b, _, _, rfl, rfl⟩ := hj
    show Jws.sigOk p alg _ [] = true ↔ _
    unfold Jws.sigOk
    rw [Jws.split_jws]
    simp only [ha, if_true, beq_iff_eq]
    constructor
    · intro h
      rw [show ([] : GoStr) = base64url [] from rfl] at h
      exact Jws.base64url_inj h
    · intro h; rw [h]; rfl
  | _ => exact Iff.rfl

/-- What the decoded form of a JWS has to do with it. -/
structure DecodesTo (p : Prims) (header payload : List (GoStr × Spec.JVal)) (tk : JwtToken) : Prop where
  alg : ∀ a, tk.alg = some a ↔ LastMember header b!"alg" (.str a)
  kid : ∀ a, tk.kid = some a ↔ LastMember header b!"kid" (.str a)
  claim : ∀ k v, tk.claim k = some v ↔ ∃ j, LastMember payload k j ∧ ReadAs p j v

variable {header payload : List (GoStr × Spec.JVal)} {signed sig tok : GoStr} {tk : JwtToken}

theorem decodesTo (hj : IsJws tok header payload signed sig) (hh : NumbersFit p header) (hc : NumbersFit p payload) :
    ∃ tk, (Jws.lib p).jwtDecode tok = some tk ∧ DecodesTo p header payload tk := by
  obtain ⟨tk, h1, h2, h3, h4⟩ := Jws.decode_jws hj hh hc
  exact ⟨tk, h1, h2, h3, h4⟩

theorem claimStr_iff (h : DecodesTo p header payload tk) {k s : GoStr} :
    tk.claimStr k = some s ↔ LastMember payload k (.str s) := by
  have : tk.claimStr k = some s ↔ tk.claim k = some (.str s) := by
    unfold JwtToken.claimStr
    split
    · rename_i s' he; rw [he]; simp
    · rename_i hn; simp; exact fun he => hn _ he
  rw [this, h.claim]
  constructor
  · rintro ⟨j, hj, hr⟩; cases hr; exact hj
  · exact fun hj => ⟨_, hj, .str⟩

theorem names_of (h : DecodesTo p header payload tk) {alg : GoStr} (ha : tk.alg = some alg) :
    Names header alg (tk.kid.getD []) := by
  refine ⟨(h.alg alg).1 ha, ?_⟩
  cases hk : tk.kid with
  | none => exact .inr ⟨rfl, fun s hs => by rw [(h.kid s).2 hs] at hk; cases hk⟩
  | some s => exact .inl ((h.kid s).1 hk)

theorem of_names (h : DecodesTo p header payload tk) {alg kid : GoStr} (ha : Names header alg kid) :
    tk.alg = some alg ∧ tk.kid.getD [] = kid := by
  refine ⟨(h.alg alg).2 ha.1, ?_⟩
  rcases ha.2 with h1 | ⟨rfl, h1⟩
  · rw [(h.kid kid).2 h1]; rfl
  · cases hk : tk.kid with
    | none => rfl
    | some s => exact absurd ((h.kid s).1 hk) (h1 s)

theorem timeMember_iff (h : DecodesTo p header payload tk) {k : GoStr} {n : Int64} :
    NumberClaim tk k n ↔ TimeMember p payload k n := by
  unfold NumberClaim TimeMember
  rw [h.claim, h.claim]
  constructor
  · rintro (⟨j, hj, hr⟩ | ⟨j, hj, hr⟩)
    · cases hr with | num hl => exact ⟨_, hj, hl⟩
    · cases hr
  · rintro ⟨lit, hj, hl⟩
    exact .inl ⟨_, hj, .num hl⟩

theorem signature_alg {lib : Lib} {alg tok : GoStr} {key : Key} (h : SignatureOk lib alg tok key) : alg ≠ [] := by
  have hne : ∀ l : List GoStr, alg ∈ l → [] ∉ l → alg ≠ [] := fun l h1 h2 h3 => h2 (h3 ▸ h1)
  cases key with
  | bytes k => exact hne _ h.1 (by decide)
  | rsaPub k => exact hne _ h.1 (by decide)
  | ecPub k => exact hne _ h.1 (by decide)
  | unsafeNone => rw [h.1]; decide
  | _ => cases h

theorem alg_of {lib : Lib} {tok : GoStr} {key : Key} (h : SignatureOk lib (tk.alg.getD []) tok key) :
    tk.alg = some (tk.alg.getD []) := by
  cases ha : tk.alg with
  | none => rw [ha] at h; exact absurd rfl (signature_alg h)
  | some a => rfl

/-- C96 for client assertions: when a request without secret is answered 200 and its assertion is a JWS, then the
client found under the `sub` of its payload has a key for the algorithm and the key id of its header, the
signature verifies under this key over exactly the text before it, `aud` is the issuer, and `exp` has not passed
(or is 0, see C63).  Of members that occur several times the last one counts, for all of this. -/
theorem C96_client (hs : ∀ h, Registered cfg r h → Silent h)
    (h : Steps (handler cfg (Jws.lib p) r) (pre ++ [wrote resp])) (h200 : resp.status = 200)
    (hno : ∀ cid sec b, ¬ Presented cfg.acceptance r cid sec b)
    (hj : IsJws (r.formValue b!"client_assertion") header payload signed sig) (hh : NumbersFit p header)
    (hc : NumbersFit p payload) :
    ∃ c alg kid key sub aud exp wall, Names header alg kid ∧ c.assertionKey alg kid = some key ∧
      Verified p alg signed sig key ∧ LastMember payload b!"sub" (.str sub) ∧
      ⟨.findClientById sub, (some c, none)⟩ ∈ pre ∧ LastMember payload b!"aud" (.str aud) ∧ ⟨.issuer, aud⟩ ∈ pre ∧
      TimeMember p payload b!"exp" exp ∧ ⟨.wallNow, wall⟩ ∈ pre ∧ (exp = 0 ∨ wall.toInt ≤ exp.toInt) ∧
      Authenticated cfg (Jws.lib p) r c pre := by
  obtain ⟨_, _, hf, c, t1, now, t2, res, hreg, ha, hok, rfl, rfl⟩ := token_200 hs h h200
  have ha' := authTrace_authenticated ha
  cases ha with
  | secret cid sec b hp => exact absurd hp (hno _ _ _)
  | assertion ca hn hacc hpa hrun =>
    obtain ⟨tk, sub, wall, exp, aud, ⟨hd, key, hk, hv⟩, hsub, h1, h2, h3, h4, h5, h6, rfl⟩ := runs_byAssertion hrun
    obtain rfl : r.formValue b!"client_assertion" = ca := hpa.1
    obtain ⟨tk', hd', hdt⟩ := decodesTo hj hh hc
    obtain rfl : tk = tk' := by rw [hd] at hd'; exact Option.some.inj hd'
    refine ⟨c, _, _, key, sub, aud, exp, wall, names_of hdt (alg_of hv), hk, (verified_of hj).1 hv, (claimStr_iff hdt).1 hsub,
      by simp, (claimStr_iff hdt).1 h5, by simp, (timeMember_iff hdt).1 ?_, by simp, ?_, authenticated_mono ha'.1 (by simp +contextual)⟩
    · exact Props.numClaim_iff.1 h4
    · exact expOk_expClaim (expClaim_of h4) h1

/-- C96 for JWT bearer grants: the same, for the key of the authenticated client; the token is for the user found
under the `sub` of the payload. -/
theorem C96_jwt (hreg : Registered cfg r (Grant.jwt (Jws.lib p)))
    (h : Steps (handler cfg (Jws.lib p) r) (pre ++ [wrote resp])) (h200 : resp.status = 200)
    (hj : IsJws (r.formValue b!"assertion") header payload signed sig) (hh : NumbersFit p header)
    (hc : NumbersFit p payload) :
    ∃ c alg kid key sub aud exp wall uid info tk, Authenticated cfg (Jws.lib p) r c pre ∧ Names header alg kid ∧
      c.assertionKey alg kid = some key ∧ Verified p alg signed sig key ∧
      LastMember payload b!"aud" (.str aud) ∧ ⟨.issuer, aud⟩ ∈ pre ∧
      TimeMember p payload b!"exp" exp ∧ ⟨.wallNow, wall⟩ ∈ pre ∧ (exp = 0 ∨ wall.toInt ≤ exp.toInt) ∧
      LastMember payload b!"sub" (.str sub) ∧ ⟨.findUserIdBySubject sub, (uid, none)⟩ ∈ pre ∧
      ⟨.createOrUpdateAuthInfo uid c.id (r.formValue b!"scope"), (some info, none)⟩ ∈ pre ∧
      ⟨.createOAuthToken (some info) true, (some tk, none)⟩ ∈ pre := by
  obtain ⟨c, auth, now, t2, res, h1, h2, h3, hsub, hok, h4, h5⟩ := grant_200 hreg .jwt h h200
  obtain ⟨tkn, key, wall, exp, aud, sub, uid, info, tk, ha, hd, hk, hv, he, _, _, hexp, haud, hne, hsb, _,
    rfl, rfl⟩ := jwt_ok hok
  obtain ⟨tk', hd', hdt⟩ := decodesTo hj hh hc
  obtain rfl : tkn = tk' := by rw [hd] at hd'; exact Option.some.inj hd'
  have hv := verifies_iff.1 hv
  have hm : ∀ e ∈ auth, e ∈ pre := fun e he => by
    have : e ∈ dataCalls pre := by rw [h4]; simp [he]
    exact (List.mem_filter.1 this).1
  exact ⟨c, _, _, key, sub, aud, exp, wall, uid, info, tk, authenticated_mono h1 hm, names_of hdt (alg_of hv), hk,
    (verified_of hj).1 hv, (claimStr_iff hdt).1 haud, hsub _ (by simp), (timeMember_iff hdt).1 (Props.numClaim_iff.1 hexp),
    hsub _ (by simp), expOk_expClaim (expClaim_of hexp) (expOk_iff.1 he), (claimStr_iff hdt).1 hsb,
    hsub _ (by simp), hsub _ (by simp), hsub _ (by simp)⟩

/-- C96: whatever an accepted assertion looks like, its text has three parts, and the signature verified is the
third part, about the exact text of the first two. -/
theorem C96_text {c : Client} (h : VerifiedAssertion (Jws.lib p) c tok tk) :
    ∃ a b g key, tok = a ++ 46 :: b ++ 46 :: g ∧ (46 : UInt8) ∉ a ∧ (46 : UInt8) ∉ b ∧ (46 : UInt8) ∉ g ∧
      c.assertionKey (tk.alg.getD []) (tk.kid.getD []) = some key ∧
      ∃ sig, (∀ s, g = base64url s → sig = s) ∧ Verified p (tk.alg.getD []) (a ++ 46 :: b) sig key := by
  obtain ⟨hd, key, hk, hv⟩ := h
  have hd : Jws.decode p tok = some tk := hd
  unfold Jws.decode at hd
  split at hd
  · rename_i a b g hs
    obtain ⟨h1, h2, h3, h4⟩ := Jws.split_eq_three hs
    refine ⟨a, b, g, key, h1, h2, h3, h4, hk, ?_⟩
    generalize tk.alg.getD [] = alg at *
    have hne : ∀ l : List GoStr, alg ∈ l → b!"none" ∉ l → alg ≠ b!"none" := fun l h1 h2 h3 => h2 (h3 ▸ h1)
    have go : ∀ (l : List GoStr) (k : GoStr), b!"none" ∉ l → alg ∈ l → Jws.sigOk p alg tok k = true →
        ∃ sig, (∀ s, g = base64url s → sig = s) ∧ alg ∈ l ∧ p.verify alg k (a ++ 46 :: b) sig = true := by
      intro l k hl ha hx
      unfold Jws.sigOk at hx
      rw [hs] at hx
      simp only [hne l ha hl, if_false] at hx
      split at hx
      · rename_i sig he
        refine ⟨sig, fun s hg => ?_, ha, hx⟩
        rw [hg, ← Jws.encodeSegment_spec, Jws.decode_encode] at he
        exact (Option.some.inj he).symm
      · cases hx
    cases key with
    | bytes k => exact go _ k (by decide) hv.1 hv.2
    | rsaPub k => exact go _ k (by decide) hv.1 hv.2
    | ecPub k => exact go _ k (by decide) hv.1 hv.2
    | unsafeNone =>
      obtain ⟨rfl, hx⟩ := hv
      have hx : Jws.sigOk p b!"none" tok [] = true := hx
      unfold Jws.sigOk at hx
      rw [hs] at hx
      simp only [if_true, beq_iff_eq] at hx
      subst hx
      exact ⟨[], fun s hg => Jws.base64url_inj (show base64url [] = _ from hg), rfl, rfl⟩
    | _ => cases hv
  · cases hd

/-! ## C97: a conforming assertion is accepted -/

/-- `tok` is an assertion for the client `c`, about `sub` and for the audience `aud`: a JWS with a signature that
verifies under the key the client has for its algorithm and key id, and in time at `now`. -/
def Conforms (p : Prims) (c : Client) (sub aud tok : GoStr) (now : Int64) : Prop :=
  ∃ header payload signed sig alg kid key exp, IsJws tok header payload signed sig ∧ NumbersFit p header ∧
    NumbersFit p payload ∧ Names header alg kid ∧ c.assertionKey alg kid = some key ∧ Verified p alg signed sig key ∧
    LastMember payload b!"sub" (.str sub) ∧ LastMember payload b!"aud" (.str aud) ∧
    TimeMember p payload b!"exp" exp ∧ now.toInt ≤ exp.toInt ∧
    MissingOrPast p payload b!"iat" now ∧ MissingOrPast p payload b!"nbf" now

theorem past_of (h : DecodesTo p header payload tk) {k : GoStr} {now : Int64} (hm : MissingOrPast p payload k now) :
    tk.claim k = none ∨ ∃ n, NumberClaim tk k n ∧ n.toInt ≤ now.toInt := by
  rcases hm with hm | ⟨n, h1, h2⟩
  · left
    cases hc : tk.claim k with
    | none => rfl
    | some v =>
      obtain ⟨j, ⟨l1, l2, rfl, _⟩, _⟩ := (h.claim k v).1 hc
      exact absurd (by simp) (hm j)
  · exact .inr ⟨n, (timeMember_iff h).2 h1, h2⟩

theorem good_of {c : Client} {sub aud : GoStr} {now : Int64} (hg : Conforms p c sub aud tok now) (hne : aud ≠ [])
    (hw : Answered t .wallNow now) (hi : Answered t .issuer aud)
    (hr : ∀ jti iat exp, Answered t (.recordAssertionClaims c.id jti iat exp) none) :
    ∃ tk, tk.claimStr b!"sub" = some sub ∧ GoodAssertion (Jws.lib p) c tok tk t := by
  obtain ⟨header, payload, signed, sig, alg, kid, key, exp, hj, hh, hc, hn, hk, hv, hs, ha, he, hle, h1, h2⟩ := hg
  obtain ⟨tk, hd, hdt⟩ := decodesTo hj hh hc
  obtain ⟨e1, e2⟩ := of_names hdt hn
  have e1' : tk.alg.getD [] = alg := by rw [e1]; rfl
  refine ⟨tk, (claimStr_iff hdt).2 hs, ⟨hd, key, by rw [e1', e2]; exact hk, by rw [e1']; exact (verified_of hj).2 hv⟩, ?_,
    ⟨exp, (timeMember_iff hdt).2 he⟩, ⟨aud, hne, (claimStr_iff hdt).2 ha, hi⟩, hr⟩
  intro wall hm
  obtain rfl := hw wall hm
  exact ⟨⟨exp, (timeMember_iff hdt).2 he, hle⟩, past_of hdt h1, past_of hdt h2⟩

/-- C97 for client assertions: a client that presents a conforming assertion about itself for the issuer, and that
the application finds and whose assertion it records, is authenticated, and its grant is executed. -/
theorem C97_client {hf : GrantFunc} {c : Client} {sub aud : GoStr} {now : Int64} (h : Runs (handler cfg (Jws.lib p) r) t o)
    (hm : r.method = b!"POST") (hgt : r.formValue b!"grant_type" ≠ []) (hreg : Registered cfg r hf)
    (hno : ∀ cid sec b, ¬ Presented cfg.acceptance r cid sec b) (hacc : cfg.acceptClientAssertion = true)
    (hp : PresentedAssertion r tok) (hg : Conforms p c sub aud tok now) (hne : aud ≠ [])
    (hf' : Answered t (.findClientById sub) (some c, none)) (hw : Answered t .wallNow now) (hi : Answered t .issuer aud)
    (hr : ∀ jti iat exp, Answered t (.recordAssertionClaims c.id jti iat exp) none) :
    ∃ t1 n t2 t3 o', t = t1 ++ ⟨.now, n⟩ :: t2 ++ t3 ∧ Authenticated cfg (Jws.lib p) r c t1 ∧ Runs (hf r c n).run t2 o' := by
  obtain ⟨tk, h1, h2⟩ := good_of hg hne hw hi hr
  obtain ⟨t1, n, t2, t3, o', e1, e2, e3, _⟩ := C68_handler_executed h hm hgt hreg (.assertion tok tk sub hno hacc hp h1 hf' h2)
  exact ⟨t1, n, t2, t3, o', e1, e2, e3⟩

/-- C97 for JWT bearer grants: a client whose credentials are in order and whose assertion conforms gets a token for
the user it is about. -/
theorem C97_jwt {c : Client} {sub aud : GoStr} {now uid : Int64} {info : AuthInfo} {token : OAuthToken}
    (h : Runs (handler cfg (Jws.lib p) r) t o) (hm : r.method = b!"POST") (hgt : r.formValue b!"grant_type" ≠ [])
    (hreg : Registered cfg r (Grant.jwt (Jws.lib p))) (hc : ClientInOrder cfg (Jws.lib p) r c t)
    (hg : Conforms p c sub aud (r.formValue b!"assertion") now) (hne : aud ≠ [])
    (hw : Answered t .wallNow now) (hi : Answered t .issuer aud)
    (hr : ∀ jti iat exp, Answered t (.recordAssertionClaims c.id jti iat exp) none)
    (hscp : ScopeInOrder r c) (hu : Answered t (.findUserIdBySubject sub) (uid, none))
    (hai : Answered t (.createOrUpdateAuthInfo uid c.id (r.formValue b!"scope")) (some info, none))
    (ht : Answered t (.createOAuthToken (some info) true) (some token, none)) : Granted t o := by
  obtain ⟨tk, h1, h2⟩ := good_of hg hne hw hi hr
  obtain ⟨_, _, _, _, _, _, _, _, hj, _⟩ := hg
  exact C68_jwt h hm hgt hreg hc (isJws_valid hj).2 h2 h1 hscp hu hai ht

/-- A member that is said exactly once is the last one of its name. -/
theorem says_last {P : GoStr → Goidc.JVal → Prop} {m : List (GoStr × Spec.JVal)} {k : GoStr} {j : Spec.JVal}
    (h : SaysExactly m P) (hm : (k, j) ∈ m) : LastMember m k j := by
  obtain ⟨l1, l2, rfl⟩ := List.append_of_mem hm
  refine ⟨l1, l2, rfl, fun kv hkv he => ?_⟩
  have := h.once
  rw [List.map_append, List.map_cons, List.nodup_append] at this
  have h2 := (List.nodup_cons.1 this.2.1).1
  exact h2 (List.mem_map.2 ⟨kv, hkv, he⟩)

theorem says_str {P : GoStr → Goidc.JVal → Prop} {m : List (GoStr × Spec.JVal)} {k s : GoStr}
    (h : SaysExactly m P) (hs : P k (.str s)) (hv : ValidUtf8 s) : LastMember m k (.str s) := by
  obtain ⟨j, h1, h2⟩ := h.all k _ hs
  cases h2 with
  | str h3 h4 => rw [h4 hv] at h1; exact says_last h h1

theorem canonical_itoa {lit : GoStr} {n : Int64} (h : CanonicalDecimal lit n.toInt) : lit = itoa n := by
  obtain ⟨⟨ds, hd, h1⟩, h2, h3, h4⟩ := h
  obtain ⟨ds', hd', hv', hz', hi⟩ := itoa_digits n
  have e := isDigits_head hd
  have huniq : ∀ a b : GoStr, IsDigits a → IsDigits b → (a.head? = some 48 → a = [48]) → (b.head? = some 48 → b = [48]) →
      digitsValue a = digitsValue b → a = b := fun a b ha hb za zb hab => digits_unique ha hb za zb hab
  rcases h1 with ⟨rfl, hz⟩ | ⟨rfl, hz⟩ | ⟨rfl, hz⟩
  · rw [hi]
    have hn : ¬ n.toInt < 0 := by omega
    rw [if_neg hn]
    exact huniq _ _ hd hd' (fun h => h4 (.inl h)) (fun h => (hz' h).1) (by omega)
  · simp at h2
  · rw [hi]
    have hn : n.toInt < 0 := h3.1 (by simp)
    rw [if_pos hn]
    congr 1
    refine huniq _ _ hd hd' (fun h => ?_) (fun h => (hz' h).1) (by omega)
    have := h4 (.inr ⟨by simp, by simpa using h⟩)
    simp at this

theorem says_time {P : GoStr → Goidc.JVal → Prop} {m : List (GoStr × Spec.JVal)} {k : GoStr} {n : Int64}
    (h : SaysExactly m P) (hs : P k (.float n)) (hf : Jws.Fits (.float n)) : TimeMember p m k n := by
  obtain ⟨j, h1, h2⟩ := h.all k _ hs
  cases h2 with
  | int h3 =>
    rw [canonical_itoa h3] at h1
    exact ⟨_, says_last h h1, Jws.float_fits hf⟩

theorem says_fit {P : GoStr → Goidc.JVal → Prop} {m : List (GoStr × Spec.JVal)} (h : SaysExactly m P) : NumbersFit p m := by
  intro lit hl
  cases hl with
  | obj hm hn =>
    obtain ⟨v, h1, h2⟩ := h.only _ _ hm
    cases h2 with
    | str _ _ => cases hn
    | int h3 =>
      cases hn
      rw [canonical_itoa h3]
      exact p.float_some _

/-- C97: an assertion made with golang-jwt conforms: it is signed with the key whose other half (or copy) the client
has registered, says `sub`, `aud` and an `exp` that has not passed, and no `iat` or `nbf` in the future; these
times have at most 53 bits. -/
theorem C97_signed {c : Client} {alg kid k sub aud : GoStr} {key : Key} {exp now : Int64} {claims : List (GoStr × Goidc.JVal)}
    (hk : (alg ∈ hmacAlgs ∧ key = .bytes k) ∨ (alg ∈ rsaAlgs ∧ key = .rsaPub k) ∨ (alg ∈ ecAlgs ∧ key = .ecPub k))
    (hs : p.signOk alg k = true) (hc : c.assertionKey alg kid = some key) (hkid : ValidUtf8 kid)
    (hn : (claims.map (·.1)).Nodup) (hp : ∀ kv ∈ claims, Jws.Plain kv.2 ∧ ValidUtf8 kv.1)
    (hfit : ∀ name ∈ [b!"exp", b!"iat", b!"nbf"], ∀ n : Int64, (name, .float n) ∈ claims → -2 ^ 53 ≤ n.toInt ∧ n.toInt ≤ 2 ^ 53)
    (h1 : (b!"sub", .str sub) ∈ claims) (v1 : ValidUtf8 sub) (h2 : (b!"aud", .str aud) ∈ claims) (v2 : ValidUtf8 aud)
    (h3 : (b!"exp", .float exp) ∈ claims) (he : now.toInt ≤ exp.toInt)
    (h4 : ∀ v, (b!"iat", v) ∈ claims → ∃ n, v = .float n ∧ n.toInt ≤ now.toInt)
    (h5 : ∀ v, (b!"nbf", v) ∈ claims → ∃ n, v = .float n ∧ n.toInt ≤ now.toInt) :
    Conforms p c sub aud (Jws.sign p alg kid claims k) now := by
  obtain ⟨hd, pl, signed, sig, hj, e1, e2, rfl⟩ := Jws.sign_isJws p alg kid k claims (fun kv h => (hp kv h).1)
    (fun kv h => (hp kv h).2) hn
  have ha : alg ∈ hmacAlgs ++ rsaAlgs ++ ecAlgs := by
    simp only [List.mem_append]
    rcases hk with ⟨h, _⟩ | ⟨h, _⟩ | ⟨h, _⟩ <;> simp [h]
  have hne : alg ≠ b!"none" := by rintro rfl; exact absurd ha (by decide)
  have hva : ValidUtf8 alg := by
    have : ∀ a ∈ hmacAlgs ++ rsaAlgs ++ ecAlgs, ∀ c ∈ a, c.toNat < 128 := by decide
    exact valid_ascii (this alg ha)
  rw [if_neg hne] at hj
  have past : ∀ name : GoStr, name ∈ [b!"exp", b!"iat", b!"nbf"] → (∀ v, (name, v) ∈ claims → ∃ n, v = .float n ∧ n.toInt ≤ now.toInt) → MissingOrPast p pl name now := by
    intro name hin hx
    rcases Classical.em (∃ v, (name, v) ∈ claims) with ⟨v, hv⟩ | hno
    · obtain ⟨n, rfl, hle⟩ := hx v hv
      exact .inr ⟨n, says_time e2 hv (hfit _ hin _ hv), hle⟩
    · refine .inl fun j hm => ?_
      obtain ⟨v, hv, _⟩ := e2.only _ _ hm
      exact hno ⟨v, hv⟩
  refine ⟨hd, pl, signed, _, alg, kid, key, exp, hj, says_fit e1, says_fit e2,
    ⟨says_str e1 (.inl ⟨rfl, rfl⟩) hva, ?_⟩, hc, ?_, says_str e2 h1 v1, says_str e2 h2 v2, says_time e2 h3 (hfit _ (by simp) _ h3), he,
    past _ (by simp) h4, past _ (by simp) h5⟩
  · by_cases h : kid = []
    · refine .inr ⟨h, fun s ⟨l1, l2, hm, _⟩ => ?_⟩
      obtain ⟨v, hv, _⟩ := e1.only b!"kid" (.str s) (by rw [hm]; simp)
      rcases hv with ⟨hx, _⟩ | ⟨hx, _⟩ | ⟨_, hx, _⟩
      · exact absurd hx (by decide)
      · exact absurd hx (by decide)
      · exact hx h
    · exact .inl (says_str e1 (.inr (.inr ⟨rfl, h, rfl⟩)) hkid)
  · have := p.verify_signature alg k signed hs
    rcases hk with ⟨h, rfl⟩ | ⟨h, rfl⟩ | ⟨h, rfl⟩ <;> exact ⟨h, this⟩

/-! ## Samples: tokens made elsewhere, checked with HMAC-SHA-256 -/

/-- The endpoint of the samples, on golang-jwt with real primitives. -/
def jwsCfg : TokenCfg :=
  { Sample.tokenCfg with
    handlers := [(Grant.typeAuthorizationCode, Grant.authorizationCode (Jws.lib Crypto.prims)),
      (Grant.typeClientCredentials, Grant.clientCredentials), (Grant.typeJWT, Grant.jwt (Jws.lib Crypto.prims))] }

/-- The HS256 JWS, under the key `key`, of
`{ "iss": "client", "sub": "client", "aud": "https://issuer", "exp": 2000, "jti": "j1", "x": [1, {"y": null}] }`. -/
def jwsTok : GoStr := b!"eyJhbGciOiJIUzI1NiIsImtpZCI6ImsxIiwidHlwIjoiSldUIn0.eyAiaXNzIjogImNsaWVudCIsICJzdWIiOiAiY2xpZW50IiwgImF1ZCI6ICJodHRwczovL2lzc3VlciIsICJleHAiOiAyMDAwLCAianRpIjogImoxIiwgIngiOiBbMSwgeyJ5IjogbnVsbH1dIH0.Bh3EJ4M9Wpfg0AWIgcH6-ccD2ZbZwvSapiCZYeUuAWY"

def jwsBody : Params := [(b!"grant_type", Grant.typeJWT), (b!"assertion", jwsTok), (b!"scope", b!"openid")]

example : ({} : Sample.World).status (handler jwsCfg (Jws.lib Crypto.prims) (Sample.post Sample.codeBody)) = some 200 := by
  decide +kernel
example : ({} : Sample.World).status (handler jwsCfg (Jws.lib Crypto.prims) (Sample.post jwsBody)) = some 200 := by
  decide +kernel
example : ({} : Sample.World).status (handler jwsCfg (Jws.lib Crypto.prims) (Sample.postAssertion jwsTok Sample.ccBody)) = some 200 := by
  decide +kernel
/-- One changed character of the payload. -/
example : ({} : Sample.World).status (handler jwsCfg (Jws.lib Crypto.prims)
    (Sample.postAssertion (jwsTok.set 60 65) Sample.ccBody)) ≠ some 200 := by decide +kernel

/-- The runs C95 and C96 speak of. -/
example : ∃ pre resp, Steps (handler jwsCfg (Jws.lib Crypto.prims) (Sample.post Sample.codeBody)) (pre ++ [wrote resp]) ∧
    resp.status = 200 := Sample.World.steps (w := {}) (by decide +kernel)
example : ∃ pre resp, Steps (handler jwsCfg (Jws.lib Crypto.prims) (Sample.post jwsBody)) (pre ++ [wrote resp]) ∧
    resp.status = 200 := Sample.World.steps (w := {}) (by decide +kernel)
example : (∃ pre resp, Runs (handleRequest .default (Jws.lib Crypto.prims) hybridGet) (pre ++ [wrote resp]) (.ok true)) ∧
    ∃ pre resp, Runs (completeRequest .default (Jws.lib Crypto.prims) anyReq) (pre ++ [wrote resp]) (.ok true) := by
  obtain ⟨p1, r1, h1, _⟩ := world_success (w := consentedWorld) (p := handleRequest .default (Jws.lib Crypto.prims) hybridGet)
    (P := fun _ => true) (by decide +kernel) (by decide +kernel)
  obtain ⟨p2, r2, h2, _⟩ := world_success (w := hybridWorld) (p := completeRequest .default (Jws.lib Crypto.prims) anyReq)
    (P := fun _ => true) (by decide +kernel) (by decide +kernel)
  exact ⟨⟨p1, r1, h1⟩, ⟨p2, r2, h2⟩⟩

/-- An assertion made with golang-jwt. -/
def madeTok : GoStr := Jws.sign Crypto.prims b!"HS256" b!"k1" [(b!"sub", .str b!"client"), (b!"aud", .str b!"https://issuer"),
  (b!"exp", .float 2000), (b!"iat", .float 900)] b!"key"

example : ({} : Sample.World).status (handler jwsCfg (Jws.lib Crypto.prims)
    (Sample.post [(b!"grant_type", Grant.typeJWT), (b!"assertion", madeTok), (b!"scope", b!"openid")])) = some 200 := by
  decide +kernel
example : ({} : Sample.World).status (handler jwsCfg (Jws.lib Crypto.prims) (Sample.postAssertion madeTok Sample.ccBody)) = some 200 := by
  decide +kernel

/-- It conforms; in particular it is a JWS, as C96 supposes. -/
example : Conforms Crypto.prims Sample.client b!"client" b!"https://issuer" madeTok 1000 := by
  refine C97_signed (exp := 2000) (key := .bytes b!"key") (.inl ⟨by decide, rfl⟩) (by decide +kernel) rfl
    (valid_ascii (by decide)) (by decide) ?_ ?_ (by decide +kernel) (valid_ascii (by decide)) (by decide +kernel)
    (valid_ascii (by decide)) (by decide +kernel) (by decide) ?_ ?_
  · intro kv h
    simp only [List.mem_cons, List.not_mem_nil, or_false] at h
    rcases h with rfl | rfl | rfl | rfl <;> exact ⟨trivial, valid_ascii (by decide)⟩
  · intro _ _ n h
    simp only [List.mem_cons, Prod.mk.injEq, reduceCtorEq, and_false, false_or, Goidc.JVal.float.injEq, List.not_mem_nil, or_false] at h
    rcases h with ⟨_, rfl⟩ | ⟨_, rfl⟩ <;> decide
  · intro v h
    simp only [List.mem_cons, Prod.mk.injEq, List.not_mem_nil, or_false] at h
    rcases h with ⟨h, _⟩ | ⟨h, _⟩ | ⟨h, _⟩ | ⟨_, rfl⟩
    · exact absurd h (by decide)
    · exact absurd h (by decide)
    · exact absurd h (by decide)
    · exact ⟨900, rfl, by decide⟩
  · intro v h
    simp only [List.mem_cons, Prod.mk.injEq, List.not_mem_nil, or_false] at h
    rcases h with ⟨h, _⟩ | ⟨h, _⟩ | ⟨h, _⟩ | ⟨h, _⟩ <;> exact absurd h (by decide)

end Goidc.Props
