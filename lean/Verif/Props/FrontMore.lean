import Verif.Props.AuthComplete

/-! # C31 and C42 for completed and cancelled requests, and the lifetime in the implicit flow -/

namespace Goidc.Props

open Spec AuthzEndpoint

variable {policy : Policy} {lib : Lib} {r : Req} {t pre : List Event} {resp : HttpResp} {b : Bool} {req : Request}

/-! ## C31 -/

/-- C31, `CompleteRequest`: whatever it sends carries the `state` of the continued request exactly once,
unchanged, or not at all when it is empty. -/
theorem C31_complete (h : Steps (completeRequest policy lib r) t) (hw : wrote resp ∈ t) :
    ∃ req params ch, ⟨.continue_, some (some req)⟩ ∈ t ∧ Delivers resp req.redirectURI params ch ∧
      valuesOf params b!"state" = stateValues req.state := by
  obtain ⟨pre, post, rfl, hs⟩ := steps_wrote h hw
  obtain ⟨req, b, hm, hc, _⟩ := completeRequest_wrote hs
  refine ⟨req, ?_⟩
  cases hc with
  | error _ _ hd => exact ⟨_, _, by simp [hm], hd, errorResponse_state ..⟩
  | success uid info f work after ps _ hf hwk hparts hrg hd =>
    exact ⟨ps, _, by simp, hd, completeParts_state hparts⟩

/-- C31, `CancelRequest`: the same. -/
theorem C31_cancel (h : Steps (cancelRequest lib r) t) (hw : wrote resp ∈ t) :
    ∃ req params ch, ⟨.continue_, some (some req)⟩ ∈ t ∧ Delivers resp req.redirectURI params ch ∧
      valuesOf params b!"state" = stateValues req.state := by
  obtain ⟨pre, post, rfl, hs⟩ := steps_wrote h hw
  obtain ⟨_, o, hr⟩ := writeLast_complete writeLast_cancelRequest hs
  generalize he : pre ++ [wrote resp] = l at hr
  cases cancelRequest_runs hr with
  | noRequest l =>
    have : wrote resp ∈ pre ++ [wrote resp] := by simp
    rw [he] at this
    simp at this
  | nilRequest =>
    have : wrote resp ∈ pre ++ [wrote resp] := by simp
    rw [he] at this
    simp at this
  | denied req t o hs =>
    rcases hs with ⟨_, rfl, _⟩ | ⟨_, a, resp', rfl, hr, hd⟩
    · have : wrote resp ∈ pre ++ [wrote resp] := by simp
      rw [he] at this
      simp at this
    · rw [← List.cons_append] at he
      obtain ⟨rfl, rfl⟩ := snoc_inj he
      exact ⟨req, _, _, by simp, hd, errorResponse_state ..⟩

/-- Both answer requests that have a state. -/
example : (∃ pre resp, Steps (completeRequest .default Sample.lib anyReq) (pre ++ [wrote resp])) ∧
    (∃ pre resp, Steps (cancelRequest Sample.lib anyReq) (pre ++ [wrote resp])) ∧
    stateValues (continuedReq ⟨.hybrid, true, true⟩ b!"fragment").state = [b!"s"] := by
  obtain ⟨p, x, h, _⟩ := sample_complete_success
  obtain ⟨p', x', h', _⟩ := sample_cancel_success
  exact ⟨⟨p, x, runs_steps h⟩, ⟨p', x', runs_steps h'⟩, by decide +kernel⟩

/-! ## C42 -/

theorem tokenPart_values' {info f key t atk ps} (h : TokenPart info f key t atk ps) (hr : f.requireAccessToken = true)
    (h1 : b!"access_token" ≠ key) (h2 : b!"token_type" ≠ key) :
    ∃ tk, ⟨.createOAuthToken info false, (some tk, none)⟩ ∈ t ∧ valuesOf ps b!"access_token" = [tk.accessToken] ∧
      valuesOf ps b!"token_type" = [b!"bearer"] ∧ valuesOf ps key = [itoa tk.accessTokenExpiresIn] := by
  rcases h with ⟨_, tk, rfl, _, rfl⟩ | ⟨hf, _⟩
  · refine ⟨tk, by simp, ?_, ?_, ?_⟩
    · have : ¬ key = b!"access_token" := fun h => h1 h.symm
      simp [valuesOf, this]
    · have : ¬ key = b!"token_type" := fun h => h2 h.symm
      simp [valuesOf, this]
    · simp [valuesOf, h1, h2]
  · rw [hr] at hf; cases hf

theorem tokenPart_key_only {info f key t atk ps} {k : GoStr} (h : TokenPart info f key t atk ps)
    (hk : k ≠ b!"access_token") (hk2 : k ≠ b!"token_type") (h3 : key ≠ k) : valuesOf ps k = [] :=
  tokenPart_other h (Ne.symm hk) (Ne.symm hk2) h3

/-- What a completion with an access token delivers about it. -/
theorem parts_lifetime {info : Option AuthInfo} {f : Flow} {w : List Event} {ps : Params}
    (h : CompleteParts policy lib info req f w ps) (hty : f.type ≠ .authorizationCode)
    (hr : f.requireAccessToken = true) :
    ∃ tk, ⟨.createOAuthToken info false, (some tk, none)⟩ ∈ w ∧
      valuesOf ps b!"access_token" = [tk.accessToken] ∧ valuesOf ps b!"token_type" = [b!"bearer"] ∧
      valuesOf ps b!"expires_in" = (if f.type = .implicit then [] else [itoa tk.accessTokenExpiresIn]) ∧
      valuesOf ps b!"rexpires_in" = (if f.type = .implicit then [itoa tk.accessTokenExpiresIn] else []) := by
  unfold CompleteParts at h
  have hst : ∀ k, k ≠ b!"state" → valuesOf (stateParam req) k = [] := fun k hk => stateParam_other (Ne.symm hk)
  have hsc : ∀ k, k ≠ b!"scope" → valuesOf (scopeParam req) k = [] := fun k hk => scopeParam_other (Ne.symm hk)
  cases hf : f.type <;> rw [hf] at h hty
  · exact absurd rfl hty
  · obtain ⟨clnt, t1, atk, p1, at_, t2, p2, h1, h2, rfl, rfl⟩ := h
    obtain ⟨tk, k1, k2, k3, k4⟩ := tokenPart_values' h1 hr (by decide) (by decide)
    refine ⟨tk, by simp [k1], ?_, ?_, ?_, ?_⟩
    all_goals
      simp only [valuesOf_append]
      rw [hst _ (by decide), hsc _ (by decide), idPart_other h2 (by decide)]
    · simp [k2]
    · simp [k3]
    · simp [tokenPart_key_only h1 (k := b!"expires_in") (by decide) (by decide) (by decide)]
    · simp [k4]
  · obtain ⟨code, at_, clnt, t1, atk, p1, t2, p2, h1, h2, rfl, rfl⟩ := h
    obtain ⟨tk, k1, k2, k3, k4⟩ := tokenPart_values' h1 hr (by decide) (by decide)
    refine ⟨tk, by simp [k1], ?_, ?_, ?_, ?_⟩
    all_goals
      rw [valuesOf_cons_ne (by decide)]
      simp only [valuesOf_append]
      rw [hst _ (by decide), hsc _ (by decide), idPart_other h2 (by decide)]
    · simp [k2]
    · simp [k3]
    · simp [k4]
    · simp [tokenPart_key_only h1 (k := b!"rexpires_in") (by decide) (by decide) (by decide)]
  · exact h.elim

/-- C42, `CompleteRequest` (partial as above: without the implicit flow): when the continued request's
flow delivers an access token, the response has it, `token_type=bearer`, and its lifetime in decimal under
`expires_in`. -/
theorem C42_complete_partial (h : Runs (completeRequest policy lib r) (pre ++ [wrote resp]) (.ok true)) :
    ∃ req f ps ch, ⟨.continue_, some (some req)⟩ ∈ pre ∧ req.flow = some f ∧ Delivers resp req.redirectURI ps ch ∧
      ((f.type ≠ .authorizationCode ∧ f.requireAccessToken = true) →
        ∃ info tk, ⟨.createOAuthToken info false, (some tk, none)⟩ ∈ pre ∧
        valuesOf ps b!"access_token" = [tk.accessToken] ∧ valuesOf ps b!"token_type" = [b!"bearer"] ∧
        (f.type ≠ .implicit → ∃ v, valuesOf ps b!"expires_in" = [v] ∧
          CanonicalDecimal v tk.accessTokenExpiresIn.toInt)) := by
  obtain ⟨req, b, hm, hw, hr⟩ := completeRequest_wrote (runs_steps h)
  have hb : b = true := by have := runs_det h hr; cases this; rfl
  subst hb
  cases hw with
  | success uid info f work after ps _ hf hwk hparts hrg hd =>
    refine ⟨req, f, ps, _, hm, hf, hd, fun ⟨hty, hra⟩ => ?_⟩
    obtain ⟨tk, k1, k2, k3, k4, k5⟩ := parts_lifetime hparts hty hra
    refine ⟨info, tk, by simp [k1], k2, k3, fun hi => ?_⟩
    rw [if_neg hi] at k4
    exact ⟨_, k4, itoa_canonical _⟩

/-- How general the defect of C42 is: every response of the implicit flow with an access token, whatever
the request and the application, has no `expires_in` and says the lifetime under `rexpires_in`. -/
theorem C42_implicit (h : Runs (handleRequest policy lib r) (pre ++ [wrote resp]) (.ok true)) {ws : List GoStr}
    (hw : Words (r.formValue b!"response_type") ws) (ht : b!"token" ∈ ws) (hc : b!"code" ∉ ws) :
    ∃ ps ch info tk v, Delivers resp (r.formValue b!"redirect_uri") ps ch ∧
      ⟨.createOAuthToken info false, (some tk, none)⟩ ∈ pre ∧
      valuesOf ps b!"access_token" = [tk.accessToken] ∧ valuesOf ps b!"token_type" = [b!"bearer"] ∧
      valuesOf ps b!"expires_in" = [] ∧ valuesOf ps b!"rexpires_in" = [v] ∧
      CanonicalDecimal v tk.accessTokenExpiresIn.toInt := by
  obtain ⟨c, f, req, info, before, w, a, ps, rfl, hs⟩ := handleRequest_true h
  obtain ⟨_, _, _, h1, h2, h3⟩ := C47_accepted_tokens hw hs.built.judged
  have hty : f.type ≠ .authorizationCode := fun hf => hc (h1.2 (.inl hf))
  have hi : f.type = .implicit := by
    cases hf : f.type
    · exact absurd hf hty
    · rfl
    · exact absurd (h1.2 (.inr hf)) hc
    · exact absurd hf (parts_type hs.parts)
  obtain ⟨tk, k1, k2, k3, k4, k5⟩ := parts_lifetime hs.parts hty (h3.1 ht)
  rw [if_pos hi] at k4 k5
  exact ⟨ps, _, some info, tk, _, hs.delivers, by simp [k1], k2, k3, k4, k5, itoa_canonical _⟩

example : (∃ pre resp, Runs (handleRequest .default Sample.lib implicitGet) (pre ++ [wrote resp]) (.ok true)) ∧
    Words (implicitGet.formValue b!"response_type") [b!"id_token", b!"token"] ∧
    (∃ pre resp, Runs (completeRequest .default Sample.lib anyReq) (pre ++ [wrote resp]) (.ok true)) := by
  obtain ⟨p, x, _, _, h, _⟩ := C42_false
  obtain ⟨p2, r2, h2, _⟩ := sample_complete_success
  exact ⟨⟨p, x, h⟩, fields_iff.2 (by decide +kernel), ⟨p2, r2, h2⟩⟩

end Goidc.Props
