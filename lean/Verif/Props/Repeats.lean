import Verif.Spec.Repeats
import Verif.Props.Ignored
import Verif.Props.AuthPrompt

/-! # C116, C117: empty and repeated parameters -/

namespace Goidc.Props

open Spec

variable {lib : Lib} {r r' : Req}

/-! ## C116: empty parameters -/

theorem lookup_absent {ps : Params} {n : GoStr} (h : ∀ v, (n, v) ∉ ps) : lookupParam ps n = [] := by
  have : (ps.find? fun kv => kv.1 == n) = none := by
    refine List.find?_eq_none.2 fun kv hkv hn => h kv.2 ?_
    have : kv.1 = n := by simpa using hn
    subst this
    exact hkv
  unfold lookupParam
  rw [this]

theorem lookup_withValue {ps : Params} (h : NoRepeats ps) (n : GoStr) : lookupParam (withValue ps) n = lookupParam ps n := by
  induction ps with
  | nil => rfl
  | cons kv ps ih =>
    have hr := List.pairwise_cons.1 h
    by_cases hn : kv.1 = n
    · by_cases hv : kv.2 = []
      · have e1 : withValue (kv :: ps) = withValue ps := by simp [withValue, hv]
        rw [e1, lookup_absent, lookupParam, List.find?_cons_of_pos (by simpa using hn)]
        · exact hv.symm
        · intro v hm
          exact hr.1 (n, v) (List.mem_filter.1 hm).1 hn
      · have e1 : withValue (kv :: ps) = kv :: withValue ps := by simp [withValue, hv]
        rw [e1]
        unfold lookupParam
        rw [List.find?_cons_of_pos (by simpa using hn), List.find?_cons_of_pos (by simpa using hn)]
    · have e2 : ∀ l : Params, lookupParam (kv :: l) n = lookupParam l n := by
        intro l
        unfold lookupParam
        rw [List.find?_cons_of_neg (by simpa using hn)]
      rw [e2, ← ih hr.2]
      by_cases hv : kv.2 = []
      · have e1 : withValue (kv :: ps) = withValue ps := by simp [withValue, hv]
        rw [e1]
      · have e1 : withValue (kv :: ps) = kv :: withValue ps := by simp [withValue, hv]
        rw [e1, e2]

theorem withValue_append (a b : Params) : withValue (a ++ b) = withValue a ++ withValue b := by simp [withValue]

theorem noRepeats_sub {a b : Params} (h : b.Sublist a) (ha : NoRepeats a) : NoRepeats b := List.Pairwise.sublist h ha

theorem empties_body (h : EmptiesOmitted r r') : r'.bodyParams = withValue r.bodyParams := by
  unfold Req.bodyParams
  rw [h.method, h.multipart, h.body]
  split
  · rfl
  · rfl

theorem empties_form (h : EmptiesOmitted r r') (hn : NoRepeats (r.body ++ r.query)) (n : GoStr) :
    r'.formValue n = r.formValue n ∧ r'.postFormValue n = r.postFormValue n := by
  have hb : r.bodyParams.Sublist r.body := by
    unfold Req.bodyParams
    split
    · exact List.Sublist.refl _
    · exact List.nil_sublist _
  have h1 : NoRepeats (r.bodyParams ++ r.query) := noRepeats_sub (List.Sublist.append hb (List.Sublist.refl _)) hn
  have h2 : NoRepeats (r.query ++ r.bodyParams) :=
    (List.perm_append_comm.pairwise_iff (fun h => Ne.symm h)).1 h1
  unfold Req.formValue Req.postFormValue Req.formParams
  rw [empties_body h, h.multipart, h.query, ← withValue_append, ← withValue_append]
  refine ⟨?_, lookup_withValue (noRepeats_sub (List.sublist_append_left _ _) h1) n⟩
  split
  · exact lookup_withValue h2 n
  · exact lookup_withValue h1 n

/-- C116, token endpoint: leaving out the parameters that are sent without a value changes nothing. -/
theorem C116_token {cfg : TokenCfg} {t : List Event} {o : Outcome Unit} (hb : AllBuiltIn lib cfg)
    (h : EmptiesOmitted r r') (hn : NoRepeats (r.body ++ r.query)) :
    Runs (TokenEndpoint.handler cfg lib r) t o ↔ Runs (TokenEndpoint.handler cfg lib r') t o := by
  refine Iff.of_eq (congrArg (Runs · t o) (token_reads' hb ⟨h.method.symm, fun n _ => (empties_form h hn n).1.symm,
    fun n _ => (empties_form h hn n).2.symm, fun n _ => ?_⟩))
  unfold Req.header
  rw [h.headers]

/-- C116, authorization endpoint. -/
theorem C116_authorization {policy : Policy} {t : List Event} {o : Outcome Bool}
    (h : EmptiesOmitted r r') (hn : NoRepeats (r.body ++ r.query)) :
    Runs (AuthzEndpoint.handleRequest policy lib r) t o ↔ Runs (AuthzEndpoint.handleRequest policy lib r') t o :=
  Iff.of_eq (congrArg (Runs · t o) (front_handle ⟨h.method.symm, h.path.symm, fun n _ => (empties_form h hn n).1.symm⟩))

/-- A code exchange with empty parameters among the others, and the sample requests of both endpoints. -/
example : EmptiesOmitted (Sample.post ((b!"code_challenge_method", []) :: Sample.codeBody.filter (fun kv => kv.1 ≠ b!"code_challenge_method")))
      (Sample.post (Sample.codeBody.filter fun kv => kv.1 ≠ b!"code_challenge_method")) ∧
    NoRepeats ((b!"scope", []) :: Sample.codeBody) ∧
    ({} : Sample.World).status (TokenEndpoint.handler Sample.tokenCfg Sample.lib
      (Sample.post ((b!"scope", []) :: Sample.codeBody))) = some 200 ∧
    consentedWorld.status (AuthzEndpoint.handleRequest .default Sample.lib
      (authGet [(b!"response_type", b!"code"), (b!"max_age", []), (b!"scope", b!"openid"), (b!"prompt", [])])) = some 302 :=
  ⟨⟨rfl, rfl, rfl, rfl, by decide +kernel, by decide +kernel⟩, by decide +kernel, by decide +kernel, by decide +kernel⟩

/-! ## C117: repeated parameters -/

theorem lookup_again {pre ps ps' : Params} (h : Again pre ps ps') (k : GoStr) :
    lookupParam (pre ++ ps') k = lookupParam (pre ++ ps) k := by
  obtain ⟨front, back, n, v, v', rfl, rfl, hm⟩ := h
  rw [← List.append_assoc, ← List.append_assoc]
  refine lookup_behind fun hk => ?_
  have : n ≠ k := by
    rintro rfl
    exact hk v hm
  unfold lookupParam
  rw [List.find?_cons_of_neg (by simpa using this)]

theorem repeated_form (h : Repeated r r') (n : GoStr) :
    r'.formValue n = r.formValue n ∧ r'.postFormValue n = r.postFormValue n := by
  have hb : r.bodyParams = r.body := by unfold Req.bodyParams; rw [if_pos (.inr (.inl h.post))]
  have hb' : r'.bodyParams = r'.body := by unfold Req.bodyParams; rw [if_pos (.inr (.inl (h.method.trans h.post)))]
  unfold Req.formValue Req.postFormValue Req.formParams
  rw [hb, hb', h.multipart, h.multipart']
  rcases h.again with ⟨ha, hq⟩ | ⟨hq, ha⟩
  · refine ⟨?_, lookup_again ha n⟩
    rw [hq]
    obtain ⟨front, back, m, v, v', h1, h2, hm⟩ := ha
    have : Again [] (r.body ++ r.query) (r'.body ++ r.query) :=
      ⟨front, back ++ r.query, m, v, v', by rw [h1, List.append_assoc], by rw [h2, List.append_assoc]; rfl, hm⟩
    exact lookup_again this n
  · rw [hq]
    exact ⟨lookup_again ha n, rfl⟩

/-- A code exchange that names two codes. -/
def twiceBody : Params := Sample.codeBody ++ [(b!"code", b!"another"), (b!"redirect_uri", b!"https://evil/")]

/-- An authorization request that names two redirect URIs. -/
def twiceGet : Req := authGet [(b!"response_type", b!"code"), (b!"scope", b!"openid"), (b!"redirect_uri", b!"https://evil/")]

/-- C117 fails in full: a token request with two codes and two redirect URIs is granted, an authorization request with two
redirect URIs is answered with a code. -/
theorem C117_false :
    (∃ (cfg : TokenCfg) (r : Req) (t : List Event) (resp : HttpResp), AllBuiltIn Sample.lib cfg ∧ NamesTwice tokenParamNames r ∧
      Steps (TokenEndpoint.handler cfg Sample.lib r) (t ++ [wrote resp]) ∧ resp.status = 200) ∧
    ∃ (r : Req) (t : List Event) (resp : HttpResp), NamesTwice authorizationParamNames r ∧
      Runs (AuthzEndpoint.handleRequest .default Sample.lib r) (t ++ [wrote resp]) (.ok true) ∧ resp.status = 302 := by
  obtain ⟨pre, resp, h, hs⟩ := Sample.World.steps (w := {})
    (p := TokenEndpoint.handler Sample.tokenCfg Sample.lib (Sample.post twiceBody)) (n := 200) (by decide +kernel)
  obtain ⟨pre', resp', h', hs'⟩ := world_success (w := consentedWorld)
    (p := AuthzEndpoint.handleRequest .default Sample.lib twiceGet) (P := fun resp => resp.status == 302)
    (by decide +kernel) (by decide +kernel)
  exact ⟨⟨Sample.tokenCfg, _, pre, resp, sample_allBuiltIn, ⟨b!"code", by decide +kernel, by decide +kernel⟩, h, hs⟩,
    twiceGet, pre', resp', ⟨b!"redirect_uri", by decide +kernel, by decide +kernel⟩, h', by simpa using hs'⟩

/-- C117, how general this is: at no endpoint does a repeated parameter of a form change anything.  The first value counts,
the others are not looked at. -/
theorem C117_first_counts (h : Repeated r r') :
    (∀ (cfg : TokenCfg) t o, AllBuiltIn lib cfg →
      (Runs (TokenEndpoint.handler cfg lib r) t o ↔ Runs (TokenEndpoint.handler cfg lib r') t o)) ∧
    (∀ (policy : Policy) t o,
      (Runs (AuthzEndpoint.handleRequest policy lib r) t o ↔ Runs (AuthzEndpoint.handleRequest policy lib r') t o)) := by
  refine ⟨fun cfg t o hb => Iff.of_eq (congrArg (Runs · t o) (token_reads' hb ⟨h.method.symm,
      fun n _ => (repeated_form h n).1.symm, fun n _ => (repeated_form h n).2.symm, fun n _ => ?_⟩)),
    fun policy t o => Iff.of_eq (congrArg (Runs · t o) (front_handle ⟨h.method.symm, h.path.symm,
      fun n _ => (repeated_form h n).1.symm⟩))⟩
  unfold Req.header
  rw [h.headers]

/-- The code repeated in the body, and the body's redirect URI repeated in the URL. -/
example : Repeated (Sample.post Sample.codeBody) (Sample.post (Sample.codeBody ++ [(b!"code", b!"another")])) ∧
    Repeated (Sample.post Sample.codeBody) { Sample.post Sample.codeBody with query := [(b!"redirect_uri", b!"https://evil/")] } := by
  refine ⟨⟨rfl, rfl, rfl, rfl, rfl, rfl, .inl ⟨⟨Sample.codeBody, [], b!"code", lookupParam Sample.codeBody b!"code", b!"another", by simp [Sample.post], rfl,
    by decide +kernel⟩, rfl⟩⟩, rfl, rfl, rfl, rfl, rfl, rfl, .inr ⟨rfl, [], [], b!"redirect_uri",
    lookupParam Sample.codeBody b!"redirect_uri", b!"https://evil/", rfl, rfl, by decide +kernel⟩⟩

end Goidc.Props
