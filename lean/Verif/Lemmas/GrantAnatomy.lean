import Verif.Lemmas.Jwt
import Verif.Lemmas.TokenFail
import Verif.Spec.Grants
import Verif.Props.PureStrings
import Verif.Props.Encodings

/-! # From a 200 answer to the calls of the grant -/

namespace Goidc

open Spec TokenEndpoint

variable {cfg : TokenCfg} {lib : Lib} {r : Req} {pre post t : List Event} {resp : HttpResp}

theorem registered_silent {hf} (hreg : Registered cfg r hf) (hb : BuiltIn lib hf) :
    ∀ h, Registered cfg r h → Silent h := by
  intro h hh
  have : hf = h := Option.some.inj (hreg.symm.trans hh)
  exact this ▸ builtIn_silent hb

theorem authTrace_authenticated {c} (h : AuthTrace cfg lib r c t) :
    Authenticated cfg lib r c t ∧ (∀ e ∈ t, IsAuthCall e.q ∨ e.q = .wallNow) := by
  cases h with
  | secret cid sec b hp ht hm hg =>
    subst ht
    exact ⟨.inl ⟨cid, sec, b, hp, by simp, hm⟩, by simp [IsAuthCall]⟩
  | assertion ca hn hacc hpa hrun =>
    obtain ⟨tk, sub, wall, exp, aud, hv, hsub, _, _, _, _, _, _, rfl⟩ := runs_byAssertion hrun
    refine ⟨.inr ⟨hacc, ca, tk, sub, hpa, hv, hsub, by simp⟩, ?_⟩
    simp [IsAuthCall]

theorem authenticated_dataCalls {c} (h : Authenticated cfg lib r c t) :
    Authenticated cfg lib r c (dataCalls t) := by
  have hm : ∀ {cid} {x : Option Client × Option ErrType}, (⟨.findClientById cid, x⟩ : Event) ∈ t →
      (⟨.findClientById cid, x⟩ : Event) ∈ dataCalls t :=
    fun h => List.mem_filter.2 ⟨h, rfl⟩
  rcases h with ⟨cid, sec, ih, h1, h2, h3⟩ | ⟨h0, ca, tk, sub, h1, h2, h3, h4⟩
  · exact .inl ⟨cid, sec, ih, h1, hm h2, h3⟩
  · exact .inr ⟨h0, ca, tk, sub, h1, h2, h3, hm h4⟩

theorem authenticated_mono {c t'} (h : Authenticated cfg lib r c t) (hs : ∀ e ∈ t, e ∈ t') :
    Authenticated cfg lib r c t' := by
  rcases h with ⟨cid, sec, ih, h1, h2, h3⟩ | ⟨h0, ca, tk, sub, h1, h2, h3, h4⟩
  · exact .inl ⟨cid, sec, ih, h1, hs _ h2, h3⟩
  · exact .inr ⟨h0, ca, tk, sub, h1, h2, h3, hs _ h4⟩

/-- The anatomy of a 200 answer for a built-in grant, in terms of data calls. -/
theorem grant_200 {hf} (hreg : Registered cfg r hf) (hb : BuiltIn lib hf)
    (h : Steps (handler cfg lib r) (pre ++ [wrote resp])) (h200 : resp.status = 200) :
    ∃ c auth now t2 res, Authenticated cfg lib r c auth ∧ (∀ e ∈ auth, IsAuthCall e.q) ∧
      (∀ n, ⟨.now, n⟩ ∈ pre ↔ n = now ∨ ⟨.now, n⟩ ∈ t2) ∧
      (∀ e ∈ t2, e ∈ pre) ∧
      XOk (hf r c now) t2 res ∧ dataCalls pre = auth ++ dataCalls t2 ∧
      resp = ⟨200, commonHeaders, res.json⟩ := by
  obtain ⟨_, _, hf', c, t1, now, t2, res, hreg', ha, hok, rfl, rfl⟩ :=
    token_200 (registered_silent hreg hb) h h200
  have : hf = hf' := Option.some.inj (hreg.symm.trans hreg')
  subst this
  obtain ⟨h1, h2⟩ := authTrace_authenticated ha
  refine ⟨c, dataCalls t1, now, t2, res, authenticated_dataCalls h1, ?_, ?_, fun e he => by simp [he],
    hok, ?_, rfl⟩
  · intro e he
    obtain ⟨he, hd⟩ := List.mem_filter.1 he
    rcases h2 e he with h | h
    · exact h
    · rw [h] at hd; cases hd
  · intro n
    have hn1 : (⟨.now, n⟩ : Event) ∉ t1 := fun hn => by
      rcases h2 _ hn with h | h
      · exact h
      · cases h
    simp only [List.mem_append, List.mem_cons, hn1, false_or, List.not_mem_nil, or_false, Event.mk.injEq,
      heq_eq_eq, true_and]
    constructor
    · rintro ((h | h) | h)
      · exact .inl h
      · exact .inr h
      · cases h.1
    · rintro (h | h)
      · exact .inl (.inl h)
      · exact .inl (.inr h)
  · simp [dataCalls, List.filter_append, Query.isData]

theorem mem_auth_absurd {auth : List Event} (h : ∀ e ∈ auth, IsAuthCall e.q) {e : Event} (he : ¬ IsAuthCall e.q) :
    e ∉ auth := fun hm => he (h e hm)

theorem mem_dataCalls {e : Event} (he : e.q.isData = true) : e ∈ dataCalls t ↔ e ∈ t := by
  simp [dataCalls, List.mem_filter, he]

theorem claims_nodup {iss aud sub nonce ah ch : GoStr} {exp at_ iat : Int64} :
    ((IdToken.claims iss aud sub nonce exp at_ iat ah ch).map (·.1)).Nodup := by
  unfold IdToken.claims
  by_cases h1 : nonce = [] <;> by_cases h2 : iat ≥ 0 <;> by_cases h3 : at_ ≥ 0 <;>
      by_cases h4 : ah = [] <;> by_cases h5 : ch = [] <;> simp [h1, h2, h3, h4, h5]

theorem signed_iff {alg kid : GoStr} {claims key tok} (hn : (claims.map (·.1)).Nodup) :
    Jwt.signed lib alg kid claims key = some tok → SignedBy lib alg kid claims key tok := by
  intro h
  unfold Jwt.signed at h
  repeat' split at h
  all_goals cases h
  · rename_i hc; simp at hc; exact .hmac _ hn hc.2 (family_hmac.1 hc.1)
  · rename_i hc; simp at hc; exact .rsa _ hn hc.2 (family_rsa.1 hc.1)
  · rename_i hc; simp at hc; exact .ecdsa _ hn hc.2 (family_ecdsa.1 hc.1)
  · rename_i hc; simp at hc; exact .unsafeNone hn (family_noneAlg.1 hc.1)

theorem gen_signed {alg key kid iss aud sub nonce} {expiresIn authTime now : Int64} {tok}
    (h : IdToken.gen lib alg key kid iss aud sub nonce expiresIn authTime now = some tok) :
    ∃ claims, SignedBy lib alg kid claims key tok ∧
      ∀ k v, (k, v) ∈ claims ↔ CodeIdTokenClaims iss aud sub nonce (now + expiresIn) now authTime k v := by
  unfold IdToken.gen IdToken.rawGen at h
  split at h
  · cases h
  · refine ⟨_, signed_iff claims_nodup h, fun k v => ?_⟩
    unfold IdToken.claims CodeIdTokenClaims
    simp only [List.mem_append, List.mem_cons, Prod.mk.injEq, List.not_mem_nil, or_false, if_true]
    by_cases h1 : nonce = [] <;> by_cases h2 : now ≥ 0 <;> by_cases h3 : authTime ≥ 0 <;>
      simp [h1, h2, h3, or_assoc]

end Goidc
