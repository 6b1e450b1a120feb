import Verif.Lemmas.JwsLoose
import Verif.Props.Jws
import Verif.Props.AuthPrompt
import Verif.Props.HintJws

/-! # C102: whatever is accepted as an assertion or hint is a JWS, and is read in one way -/

namespace Goidc.Props

open Spec TokenEndpoint AuthzEndpoint

variable {p : Prims} {cfg : TokenCfg} {policy : Policy} {r : Req} {pre : List Event} {resp : HttpResp} {tok : GoStr} {tk : JwtToken}

/-- A token that was decoded and whose signature was accepted is a JWS, as golang-jwt reads it. -/
theorem loose_verified {alg : GoStr} {key : Key} (hd : (Jws.lib p).jwtDecode tok = some tk) (ha : tk.alg = some alg) (hc : tk.claims ≠ [])
    (hv : SignatureOk (Jws.lib p) alg tok key) :
    ∃ header payload signed sig, LooseJws tok header payload signed sig ∧ NumbersFit p header ∧ NumbersFit p payload ∧
      DecodesTo p header payload tk ∧ Verified p alg signed sig key := by
  obtain ⟨a, b, g, ht, ct, header, payload, hs, h1, h2, h3, h4, h5, h6, h7, h8, h9⟩ :=
    Jws.decode_sound (p := p) hd (by rw [ha]; simp) hc
  obtain ⟨e, n1, n2, n3⟩ := Jws.split_eq_three hs
  have hne : ∀ l : List GoStr, alg ∈ l → b!"none" ∉ l → alg ≠ b!"none" := fun l h1 h2 h3 => h2 (h3 ▸ h1)
  have done : ∀ sig, LooseBase64url g sig → Verified p alg (a ++ 46 :: b) sig key →
      ∃ header payload signed sig, LooseJws tok header payload signed sig ∧ NumbersFit p header ∧ NumbersFit p payload ∧
        DecodesTo p header payload tk ∧ Verified p alg signed sig key := fun sig hg hver =>
    ⟨header, payload, a ++ 46 :: b, sig, ⟨a, b, g, ht, ct, e, rfl, n1, n2, n3, h1, h2, h3, h4, hg⟩, h5, h6, ⟨h7, h8, h9⟩, hver⟩
  have go : ∀ (l : List GoStr) (k : GoStr), b!"none" ∉ l → alg ∈ l → Jws.sigOk p alg tok k = true →
      ∃ sig, LooseBase64url g sig ∧ p.verify alg k (a ++ 46 :: b) sig = true := by
    intro l k hl hin hx
    unfold Jws.sigOk at hx
    rw [hs] at hx
    simp only [hne l hin hl, if_false] at hx
    split at hx
    · rename_i sig he
      exact ⟨sig, Jws.decodeSegment_sound he, hx⟩
    · cases hx
  cases key with
  | bytes k => obtain ⟨sig, x, y⟩ := go _ k (by decide) hv.1 hv.2; exact done sig x ⟨hv.1, y⟩
  | rsaPub k => obtain ⟨sig, x, y⟩ := go _ k (by decide) hv.1 hv.2; exact done sig x ⟨hv.1, y⟩
  | ecPub k => obtain ⟨sig, x, y⟩ := go _ k (by decide) hv.1 hv.2; exact done sig x ⟨hv.1, y⟩
  | unsafeNone =>
    have hx : Jws.sigOk p alg tok [] = true := hv.2
    unfold Jws.sigOk at hx
    rw [hs] at hx
    simp only [hv.1, if_true, beq_iff_eq] at hx
    subst hx
    exact done [] (Jws.looseBase64_of []) ⟨hv.1, rfl⟩
  | _ => cases hv

theorem claims_ne {k : GoStr} {v : Goidc.JVal} (h : tk.claim k = some v) : tk.claims ≠ [] := by
  intro he
  unfold JwtToken.claim at h
  rw [he] at h
  cases h

theorem claims_ne_str {k s : GoStr} (h : tk.claimStr k = some s) : tk.claims ≠ [] := by
  unfold JwtToken.claimStr at h
  split at h
  · rename_i he; exact claims_ne he
  · cases h

/-- C102 for client assertions: whenever a request without secret is answered 200, the text of its assertion is a JWS (as
golang-jwt reads it), and what C96 says of it holds. -/
theorem C102_client (hs : ∀ h, Registered cfg r h → Silent h)
    (h : Steps (handler cfg (Jws.lib p) r) (pre ++ [wrote resp])) (h200 : resp.status = 200)
    (hno : ∀ cid sec b, ¬ Presented cfg.acceptance r cid sec b) :
    ∃ header payload signed sig, LooseJws (r.formValue b!"client_assertion") header payload signed sig ∧
    ∃ c alg kid key sub aud exp wall, Names header alg kid ∧ c.assertionKey alg kid = some key ∧
      Verified p alg signed sig key ∧ LastMember payload b!"sub" (.str sub) ∧
      ⟨.findClientById sub, (some c, none)⟩ ∈ pre ∧ LastMember payload b!"aud" (.str aud) ∧ ⟨.issuer, aud⟩ ∈ pre ∧
      TimeMember p payload b!"exp" exp ∧ ⟨.wallNow, wall⟩ ∈ pre ∧ (exp = 0 ∨ wall.toInt ≤ exp.toInt) ∧
      Authenticated cfg (Jws.lib p) r c pre := by
  obtain ⟨_, _, hf, c, t1, now, t2, res, hreg, ha, hok, rfl, rfl⟩ := token_200 hs h h200
  have ha' := authTrace_authenticated ha
  cases ha with
  | secret cid sec b hp => exact absurd hp (hno _ _ _)
  | assertion ca hn hacc hpa hrun =>
    obtain ⟨tk, sub, wall, exp, aud, ⟨hd, key, hk, hv⟩, hsub, h1, h2, h3, h4, h5, h6, rfl⟩ := runs_byAssertion hrun
    obtain rfl : r.formValue b!"client_assertion" = ca := hpa.1
    obtain ⟨header, payload, signed, sig, hj, _, _, hdt, hver⟩ := loose_verified hd (alg_of hv) (claims_ne_str hsub) hv
    refine ⟨header, payload, signed, sig, hj, c, _, _, key, sub, aud, exp, wall, names_of hdt (alg_of hv), hk, hver, (claimStr_iff hdt).1 hsub,
      by simp, (claimStr_iff hdt).1 h5, by simp, (timeMember_iff hdt).1 ?_, by simp, ?_, authenticated_mono ha'.1 (by simp +contextual)⟩
    · exact Props.numClaim_iff.1 h4
    · exact expOk_expClaim (expClaim_of h4) h1

/-- C102 for JWT bearer grants: the same for every assertion for which a token is granted. -/
theorem C102_jwt (hreg : Registered cfg r (Grant.jwt (Jws.lib p)))
    (h : Steps (handler cfg (Jws.lib p) r) (pre ++ [wrote resp])) (h200 : resp.status = 200) :
    ∃ header payload signed sig, LooseJws (r.formValue b!"assertion") header payload signed sig ∧
    ∃ c alg kid key sub aud exp wall uid info tk, Authenticated cfg (Jws.lib p) r c pre ∧ Names header alg kid ∧
      c.assertionKey alg kid = some key ∧ Verified p alg signed sig key ∧
      LastMember payload b!"aud" (.str aud) ∧ ⟨.issuer, aud⟩ ∈ pre ∧
      TimeMember p payload b!"exp" exp ∧ ⟨.wallNow, wall⟩ ∈ pre ∧ (exp = 0 ∨ wall.toInt ≤ exp.toInt) ∧
      LastMember payload b!"sub" (.str sub) ∧ ⟨.findUserIdBySubject sub, (uid, none)⟩ ∈ pre ∧
      ⟨.createOrUpdateAuthInfo uid c.id (r.formValue b!"scope"), (some info, none)⟩ ∈ pre ∧
      ⟨.createOAuthToken (some info) true, (some tk, none)⟩ ∈ pre := by
  obtain ⟨c, auth, now, t2, res, h1, h2, h3, hsub, hok, h4, h5⟩ := grant_200 hreg .jwt h h200
  obtain ⟨tkn, key, wall, exp, aud, sub, uid, info, tk, ha, hd, hk, hv, he, _, _, hexp, haud, hne, hsb, _,
    rfl, rfl⟩ := jwt_ok hok
  have hv := verifies_iff.1 hv
  obtain ⟨header, payload, signed, sig, hj, _, _, hdt, hver⟩ := loose_verified hd (alg_of hv) (claims_ne_str haud) hv
  have hm : ∀ e ∈ auth, e ∈ pre := fun e he => by
    have : e ∈ dataCalls pre := by rw [h4]; simp [he]
    exact (List.mem_filter.1 this).1
  exact ⟨header, payload, signed, sig, hj, c, _, _, key, sub, aud, exp, wall, uid, info, tk, authenticated_mono h1 hm, names_of hdt (alg_of hv), hk,
    hver, (claimStr_iff hdt).1 haud, hsub _ (by simp), (timeMember_iff hdt).1 (Props.numClaim_iff.1 hexp),
    hsub _ (by simp), expOk_expClaim (expClaim_of hexp) (expOk_iff.1 he), (claimStr_iff hdt).1 hsb,
    hsub _ (by simp), hsub _ (by simp), hsub _ (by simp)⟩

/-- C102 for hints: whenever a silent request succeeds for a client with the ID-token-hint policy, its hint is a JWS
whose signature verifies under the client's ID token key over exactly its text, and the user the application confirmed is the
`sub` of its payload. -/
theorem C102_hint (h : Runs (handleRequest policy (Jws.lib p) r) (pre ++ [wrote resp]) (.ok true))
    (hp : r.formValue b!"prompt" = b!"none")
    (hc : ∀ c, FoundClient r c pre → c.nonePromptPolicy = .allowIfIdTokenHintMatched) :
    ∃ header payload signed sig, LooseJws (r.formValue b!"id_token_hint") header payload signed sig ∧
    ∃ clnt alg kid key sub, FoundClient r clnt pre ∧ clnt.idTokenKey = some key ∧ Names header alg kid ∧
      Verified p alg signed sig key ∧ LastMember payload b!"sub" (.str sub) ∧
      ⟨.loginUserIsMatchedToSubject sub, some true⟩ ∈ pre := by
  obtain ⟨clnt, f, info, scope, h1, _, _, h2, _⟩ := C34_silent h hp
  have hpol := hc clnt h1
  have h4 := h2 (by rw [hpol]; simp)
  unfold SilentlyAllowed at h4
  rw [hpol] at h4
  obtain ⟨sub, ⟨tk, key, now, hd, hk, hv, _, _, hsub⟩, hm⟩ := h4
  obtain ⟨header, payload, signed, sig, hj, _, _, hdt, hver⟩ := loose_verified hd (alg_of hv) (claims_ne_str hsub) hv
  exact ⟨header, payload, signed, sig, hj, clnt, _, _, key, sub, h1, hk, names_of hdt (alg_of hv), hver,
    (claimStr_iff hdt).1 hsub, hm⟩

/-- C102: a text can be read as a JWS in at most one way. -/
theorem C102_unique {hd hd' pl pl' : List (GoStr × Spec.JVal)} {signed signed' sig sig' : GoStr}
    (h : LooseJws tok hd pl signed sig) (h' : LooseJws tok hd' pl' signed' sig') :
    hd = hd' ∧ pl = pl' ∧ signed = signed' ∧ sig = sig' := by
  obtain ⟨a, b, g, ht, ct, e1, e2, n1, n2, n3, x1, x2, x3, x4, x5⟩ := h
  obtain ⟨a', b', g', ht', ct', f1, f2, m1, m2, m3, y1, y2, y3, y4, y5⟩ := h'
  subst e2 f2
  have hsep : ∀ {x y u v : GoStr}, (46 : UInt8) ∉ x → (46 : UInt8) ∉ y → x ++ 46 :: u = y ++ 46 :: v → x = y ∧ u = v := by
    intro x y u v hx hy he
    rcases List.append_eq_append_iff.1 he with ⟨c, h1, h2⟩ | ⟨c, h1, h2⟩
    · cases c with
      | nil => simp at h1 h2; exact ⟨h1.symm, h2⟩
      | cons z c =>
        simp only [List.cons_append, List.cons.injEq] at h2
        rw [← h2.1] at h1
        exact absurd (by rw [h1]; simp) hy
    · cases c with
      | nil => simp at h1 h2; exact ⟨h1, h2.symm⟩
      | cons z c =>
        simp only [List.cons_append, List.cons.injEq] at h2
        rw [← h2.1] at h1
        exact absurd (by rw [h1]; simp) hx
  rw [e1] at f1
  simp only [List.append_assoc, List.cons_append] at f1
  obtain ⟨rfl, f2⟩ := hsep n1 m1 f1
  obtain ⟨rfl, rfl⟩ := hsep n2 m2 f2
  obtain rfl := Jws.looseBase64_unique x1 y1
  obtain rfl := Jws.looseBase64_unique x3 y3
  obtain rfl := Jws.looseBase64_unique x5 y5
  have := Json.Loose.looseText_unique x2 y2
  simp only [Spec.JVal.obj.injEq] at this
  exact ⟨this, Jws.looseStart_unique x4 y4, rfl, rfl⟩

/-- C102: a JWS by the book is one for golang-jwt, with the same header, payload, signed text and signature. -/
theorem C102_strict {hd pl : List (GoStr × Spec.JVal)} {signed sig : GoStr} (h : IsJws tok hd pl signed sig) :
    LooseJws tok hd pl signed sig := by
  obtain ⟨a, b, h1, h2, rfl, rfl⟩ := h
  exact ⟨_, _, _, a, b, rfl, rfl, Jws.base64url_no_dot a, Jws.base64url_no_dot b, Jws.base64url_no_dot sig,
    Jws.looseBase64_of a, Jws.looseText_of_json h1, Jws.looseBase64_of b, Jws.looseStart_of_json h2, Jws.looseBase64_of sig⟩

/-! ## Samples -/

/-- An assertion that is not a JWS by the book but is accepted: the payload is followed by other text. -/
def trailingTok : GoStr :=
  let signed := Jws.encodeSegment b!"{\"alg\":\"HS256\",\"kid\":\"k1\"}" ++ 46 ::
    Jws.encodeSegment b!"{\"sub\":\"client\",\"aud\":\"https://issuer\",\"exp\":2000} trailing"
  signed ++ 46 :: Jws.encodeSegment (Crypto.prims.signature b!"HS256" b!"key" signed)

/-- The runs C102 speaks of: assertions that are JWSs, and one that is only for golang-jwt. -/
example : ∃ pre resp, Steps (handler jwsCfg (Jws.lib Crypto.prims) (Sample.postAssertion jwsTok Sample.ccBody)) (pre ++ [wrote resp]) ∧
    resp.status = 200 := Sample.World.steps (w := {}) (by decide +kernel)
example : ∃ pre resp, Steps (handler jwsCfg (Jws.lib Crypto.prims) (Sample.post jwsBody)) (pre ++ [wrote resp]) ∧
    resp.status = 200 := Sample.World.steps (w := {}) (by decide +kernel)
example : ∃ pre resp, Steps (handler jwsCfg (Jws.lib Crypto.prims) (Sample.postAssertion trailingTok Sample.ccBody)) (pre ++ [wrote resp]) ∧
    resp.status = 200 := Sample.World.steps (w := {}) (by decide +kernel)

example : ∃ pre resp, Runs (handleRequest .default (Jws.lib Crypto.prims) mintedGet) (pre ++ [wrote resp]) (.ok true) ∧
    mintedGet.formValue b!"prompt" = b!"none" ∧
    ∀ c, FoundClient mintedGet c pre → c.nonePromptPolicy = .allowIfIdTokenHintMatched := by
  have hans := exec_answers hintWorld.answer (handleRequest .default (Jws.lib Crypto.prims) mintedGet)
  have hr := hintWorld.runs (handleRequest .default (Jws.lib Crypto.prims) mintedGet)
  have htr : (hintWorld.run (handleRequest .default (Jws.lib Crypto.prims) mintedGet)).2.1 = .ok true :=
    returnedTrue_ok (by decide +kernel)
  rw [htr] at hr
  cases hl : lastWrite (hintWorld.run (handleRequest .default (Jws.lib Crypto.prims) mintedGet)).1 with
  | none => exact absurd hl (by decide +kernel)
  | some resp =>
    obtain ⟨pre, hp⟩ := lastWrite_eq hl
    rw [hp] at hr
    change ∀ e ∈ (hintWorld.run (handleRequest .default (Jws.lib Crypto.prims) mintedGet)).1, e.r = hintWorld.answer e.q at hans
    rw [hp] at hans
    refine ⟨pre, resp, hr, by decide +kernel, fun c hc => ?_⟩
    obtain ⟨e, _, hc⟩ := hc
    have := hans _ (List.mem_append_left _ hc)
    obtain ⟨h1, _⟩ := Prod.mk.inj this
    obtain rfl := Option.some.inj h1
    rfl

end Goidc.Props
