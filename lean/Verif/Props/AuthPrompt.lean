import Verif.Lemmas.Jwt
import Verif.Props.Authorization
import Verif.Lemmas.Screens
import Verif.Lemmas.FromLogin

/-! # C33–C39, C64: prompts, consent, scope and parameter checks of the authorization endpoint -/

namespace Goidc.Props

open Spec AuthzEndpoint

variable {policy : Policy} {lib : Lib} {r : Req} {t pre : List Event} {resp : HttpResp} {b : Bool}

/-- Every string has words. -/
theorem words_split (s : GoStr) : Words s (split 32 s) := fields_iff.2 rfl

/-- Words of a string are unique. -/
theorem words_unique {s : GoStr} {a b : List GoStr} (ha : Words s a) (hb : Words s b) : a = b :=
  (fields_iff.1 ha).symm.trans (fields_iff.1 hb)

/-! ## C33 -/

/-- C33, for a `prompt` that is exactly `none` and a client whose policy is one of the documented
constants: no login or consent screen, at any point of any run.
Missing from the full property: prompts like `none none`, which `prompt.Validate` accepts
(`C33_false`). -/
theorem C33_no_screens_partial (h : Steps (handleRequest policy lib r) t)
    (hp : r.formValue b!"prompt" = b!"none")
    (hc : ∀ clnt, FoundClient r clnt t → clnt.nonePromptPolicy ≠ .other) :
    ∀ e ∈ t, (∀ req, e.q ≠ .showLoginScreen req) ∧ ∀ c req, e.q ≠ .showConsentScreen c req := by
  have key : ∀ e ∈ t, e.q.isPrompt ≠ true := by
    rintro ⟨q, x⟩ he hq
    obtain ⟨pre, post, rfl⟩ := List.append_of_mem he
    obtain ⟨clnt, f, req, hs⟩ := handleRequest_shown h hq
    rcases hs.may with hm | hm
    · exact hm (hs.built.prompt.trans hp)
    · exact hc clnt (foundClient_mono hs.found fun e he => by simp [he]) hm
  intro e he
  refine ⟨fun req hq => key e he (by rw [hq]; rfl), fun c req hq => key e he (by rw [hq]; rfl)⟩

/-- A code request with a given prompt. -/
def promptGet (p : GoStr) (more : Params) : Req := authGet ([(b!"response_type", b!"code"), (b!"scope", b!"openid"),
  (b!"prompt", p)] ++ more)

/-- A silent request completes in the sample world, whose client allows it with a login session. -/
theorem sample_none_success : ∃ pre resp,
    Runs (handleRequest .default Sample.lib (promptGet b!"none" [])) (pre ++ [wrote resp]) (.ok true) ∧
    decide ((b!"Location", b!"https://app/cb?code=code") ∈ resp.headers) = true :=
  world_success (w := consentedWorld) (P := fun resp => decide ((b!"Location", b!"https://app/cb?code=code") ∈ resp.headers))
    (by decide +kernel) (by decide +kernel)

/-- … and leads to an error without screens when the user is not logged in. -/
example : ({ consentedWorld with loggedIn := some false } : Sample.World).status
      (handleRequest .default Sample.lib (promptGet b!"none" [])) = some 302 ∧
    (promptGet b!"none" []).formValue b!"prompt" = b!"none" ∧
    Sample.client.nonePromptPolicy ≠ .other := by decide +kernel

/-- C33 as stated in the property list fails: `prompt=none none` is valid, contains `none`, and shows
the login screen. -/
theorem C33_false : ∃ (r : Req) (t : List Event) (o : Outcome Bool) (ws : List GoStr),
    Words (r.formValue b!"prompt") ws ∧ b!"none" ∈ ws ∧ Prompt.validate (r.formValue b!"prompt") = true ∧
    Runs (handleRequest .default Sample.lib r) t o ∧ ∃ e ∈ t, ∃ req, e.q = .showLoginScreen req := by
  refine ⟨promptGet b!"none none" [], _, _, [b!"none", b!"none"], by decide +kernel, by decide, by decide +kernel,
    ({ consentedWorld with loggedIn := some false } : Sample.World).runs _, ?_⟩
  have h : (({ consentedWorld with loggedIn := some false } : Sample.World).run
      (handleRequest .default Sample.lib (promptGet b!"none none" []))).1.any
        (fun e => match e.q with | .showLoginScreen _ => true | _ => false) = true := by decide +kernel
  obtain ⟨e, he, hq⟩ := List.any_eq_true.1 h
  refine ⟨e, he, ?_⟩
  split at hq
  · rename_i req h'; exact ⟨req, h'⟩
  · cases hq

/-! ## Scope (C38) -/

theorem built_scope {clnt f req} (hb : Built policy r clnt f req) :
    EffectiveScope f.type (r.formValue b!"prompt") (r.formValue b!"scope") req.scope := by
  intro ws ps hw hp
  have ho : Scope.includeOfflineAccess (r.formValue b!"scope") = true ↔ b!"offline_access" ∈ ws := C46_include hw
  have hc : Prompt.includeConsent req.prompt = true ↔ b!"consent" ∈ ps := by
    rw [hb.prompt]; exact C48_prompt_include_iff hp
  rcases hb.scope with ⟨he, hi⟩ | ⟨he, hi, hn⟩
  · split
    · rename_i h
      obtain ⟨h1, h2⟩ := hi (ho.2 h.1)
      rcases h.2 with h3 | h3
      · exact absurd h3 h1
      · exact absurd (hc.1 h2) h3
    · exact he
  · have hcond : b!"offline_access" ∈ ws ∧ (f.type = .implicit ∨ b!"consent" ∉ ps) := by
      refine ⟨ho.1 hi, hn.imp id fun h hm => ?_⟩
      rw [hc.2 hm] at h; cases h
    rw [if_pos hcond]
    dsimp only
    by_cases hall : ∀ w ∈ ws, w = b!"offline_access"
    · right
      refine ⟨by rw [List.filter_eq_nil_iff]; intro a ha; simp [hall a ha], ?_⟩
      rw [he]; exact C46_remove_all hw hall
    · left
      have hex : ∃ w ∈ ws, w ≠ b!"offline_access" := by
        rcases Decidable.em (∃ w ∈ ws, w ≠ b!"offline_access") with h | h
        · exact h
        · exact absurd (fun w hw => Decidable.byContradiction fun hne => h ⟨w, hw, hne⟩) hall
      refine ⟨?_, by rw [he]; exact C46_remove hw hex⟩
      obtain ⟨w, hw1, hw2⟩ := hex
      exact List.ne_nil_of_mem (List.mem_filter.2 ⟨hw1, by simpa using hw2⟩)

/-! ## C34 -/

theorem covered_consented {req : Request} {info : AuthInfo} (h : Covered policy req info t) :
    Consented policy req.clientId req.scope info t := by
  obtain ⟨uid, now, h1, h2, h3, h4, h5, h6⟩ := h
  exact ⟨uid, now, h1, h2, h3, fun ws wt hws hwt => (C46_same_iff_perm hws hwt).1 h4, h5, fun hb => later_sound hb h6⟩

theorem consented_mono {cid scope : GoStr} {info : AuthInfo} {t t' : List Event} (h : Consented policy cid scope info t)
    (hs : ∀ e ∈ t, e ∈ t') : Consented policy cid scope info t' := by
  obtain ⟨uid, now, h1, h2, h3, h4, h5, h6⟩ := h
  exact ⟨uid, now, hs _ h1, hs _ h2, h3, h4, hs _ h5, h6⟩

theorem verifies_other {alg s b : GoStr} : Jwt.verifies lib alg s (.other b) = false := by
  unfold Jwt.verifies
  split <;> first | rfl | (rename_i h; cases h) | simp_all

theorem nonePath_allowed {clnt : Client} {req : Request} {f : Flow} (hb : Built policy r clnt f req)
    (h : NonePath lib clnt req t) : SilentlyAllowed lib r clnt t := by
  unfold SilentlyAllowed
  obtain ⟨_, ⟨h1, h2⟩ | ⟨h1, h2, h3, h4⟩ | ⟨h1, sub, ⟨h2, tk, now, h3, h4, h5, h6, h7, h8⟩, h9⟩⟩ := h
  · rw [h1]; exact h2
  · rw [h1]; rw [hb.loginHint] at h2 h4; exact ⟨h3, h2, h4⟩
  · rw [h1]
    refine ⟨sub, ⟨tk, ?_⟩, h9⟩
    cases hk : clnt.idTokenKey with
    | none => rw [hk] at h5; simp only [Option.getD_none] at h5; rw [verifies_other] at h5; cases h5
    | some key =>
      rw [hk] at h5
      exact ⟨key, now, hb.idTokenHint ▸ h3, rfl, verifies_iff.1 (hb.idTokenHint ▸ h5), h4, expOk_iff.1 h6, h8⟩

/-- C34: a success response to `prompt=none`: what the client's policy demands of the session and the
hints was confirmed, and an earlier consent covers the effective scope.  (Policies outside the
documented constants are excluded.) -/
theorem C34_silent (h : Runs (handleRequest policy lib r) (pre ++ [wrote resp]) (.ok true))
    (hp : r.formValue b!"prompt" = b!"none") :
    ∃ clnt f info scope, FoundClient r clnt pre ∧
      Asks (r.formValue b!"response_type") f ∧
      EffectiveScope f.type b!"none" (r.formValue b!"scope") scope ∧
      (clnt.nonePromptPolicy ≠ .other → SilentlyAllowed lib r clnt pre) ∧
      Consented policy (r.formValue b!"client_id") scope info pre := by
  obtain ⟨c, f, req, info, before, w, a, ps, rfl, hs⟩ := handleRequest_true h
  have hsub : ∀ e ∈ before, e ∈ before ++ w ++ a := fun e he => by simp [he]
  have hc := consented_mono (covered_consented hs.covered) hsub
  rw [hs.built.clientId] at hc
  refine ⟨c, f, info, req.scope, foundClient_mono hs.found hsub, asks_iff.2 hs.built.judged, hp ▸ built_scope hs.built, ?_, hc⟩
  intro hno
  rcases hs.path with hn | ⟨hm, _⟩
  · exact nonePath_allowed hs.built (nonePath_mono hn hsub)
  · rcases hm with hm | hm
    · exact absurd (hs.built.prompt.trans hp) hm
    · exact absurd hm hno

/-- C34: with the Forbidden policy a silent request never succeeds. -/
theorem C34_forbidden (h : Runs (handleRequest policy lib r) (pre ++ [wrote resp]) (.ok true))
    (hp : r.formValue b!"prompt" = b!"none")
    (hf : ∀ clnt, FoundClient r clnt pre → clnt.nonePromptPolicy = .forbidden) : False := by
  obtain ⟨clnt, f, info, scope, h1, _, _, h2, _⟩ := C34_silent h hp
  have h3 := hf clnt h1
  have h4 := h2 (by rw [h3]; simp)
  unfold SilentlyAllowed at h4
  rw [h3] at h4
  exact h4

/-- The hypotheses of `C34_silent` are met by `sample_none_success`, which succeeds. -/
example : ∃ pre resp, Runs (handleRequest .default Sample.lib (promptGet b!"none" [])) (pre ++ [wrote resp]) (.ok true) ∧
    (promptGet b!"none" []).formValue b!"prompt" = b!"none" := by
  obtain ⟨pre, resp, h, _⟩ := sample_none_success
  exact ⟨pre, resp, h, by decide +kernel⟩

/-- With the ID-token-hint policy a silent request succeeds when the hint verifies. -/
example : ({ consentedWorld with client := (some { Sample.client with nonePromptPolicy := .allowIfIdTokenHintMatched }, none) } :
    Sample.World).status (handleRequest .default Sample.lib (promptGet b!"none" [(b!"id_token_hint", b!"tok")])) = some 302 ∧
    returnedTrue (({ consentedWorld with client := (some { Sample.client with nonePromptPolicy := .allowIfIdTokenHintMatched }, none) } :
    Sample.World).run (handleRequest .default Sample.lib (promptGet b!"none" [(b!"id_token_hint", b!"tok")]))) = true := by
  decide +kernel

/-! ## C35 -/

/-- The authorization endpoint went on: it sent a success response or showed the consent screen. -/
def Proceeded (policy : Policy) (lib : Lib) (r : Req) (pre : List Event) : Prop :=
  (∃ resp, Runs (handleRequest policy lib r) (pre ++ [wrote resp]) (.ok true)) ∨
  (∃ c req b, Steps (handleRequest policy lib r) (pre ++ [⟨.showConsentScreen c req, b⟩]))

/-- What was checked before. -/
theorem proceeded_passed (h : Proceeded policy lib r pre) : ∃ clnt f req, FoundClient r clnt pre ∧
    Built policy r clnt f req ∧ (NonePath lib clnt req pre ∨ Passed req pre) := by
  rcases h with ⟨resp, h⟩ | ⟨c, req, b, h⟩
  · obtain ⟨c, f, req, info, before, w, a, ps, rfl, hs⟩ := handleRequest_true h
    have hsub : ∀ e ∈ before, e ∈ before ++ w ++ a := fun e he => by simp [he]
    refine ⟨c, f, req, foundClient_mono hs.found hsub, hs.built, ?_⟩
    rcases hs.path with hn | ⟨_, _, _, hp⟩
    · exact .inl (nonePath_mono hn hsub)
    · exact .inr (passed_mono hp hsub)
  · obtain ⟨clnt, f, req', hs⟩ := handleRequest_shown h rfl
    rcases hs.which with hq | ⟨hq, hp⟩
    · cases hq
    · exact ⟨clnt, f, req', hs.found, hs.built, .inr hp⟩

/-- C35, for a prompt other than `none`: when the request carries `max_age=m` with `m > 0`, the
endpoint goes on only if the login is at most `m` seconds old by the application's auth time and the
endpoint's clock.  Missing from the full property: `prompt=none` skips the check (`C35_false`). -/
theorem C35_max_age_partial (h : Proceeded policy lib r pre) {m : Int}
    (hm : SignedDecimal (r.formValue b!"max_age") m) (hpos : 0 < m) (hp : r.formValue b!"prompt" ≠ b!"none") :
    ∃ authTime now : Int64, ⟨.getAuthTime, some authTime⟩ ∈ pre ∧ ⟨.now, now⟩ ∈ pre ∧
      (0 ≤ authTime.toInt → 0 ≤ now.toInt → now.toInt - authTime.toInt ≤ m) := by
  obtain ⟨clnt, f, req, _, hb, hn | hpass⟩ := proceeded_passed h
  · exact absurd (hb.prompt.symm.trans hn.1) hp
  · have hv : req.maxAge.toInt = m := by
      rcases hb.maxAge with ⟨h0, _⟩ | ⟨h1, _⟩
      · rw [h0] at hm
        obtain ⟨ds, ⟨hne, _⟩, ⟨h, _⟩ | ⟨h, _⟩ | ⟨h, _⟩⟩ := hm
        · exact absurd h.symm hne
        · cases h
        · cases h
      · exact signedDecimal_unique ((atoi_iff _ _).1 h1) hm
    have hgt : req.maxAge > 0 := by
      show (0 : Int64) < req.maxAge
      rw [Int64.lt_iff_toInt_lt, hv]; exact hpos
    obtain ⟨a, n, h1, h2, h3⟩ := hpass.2.2 hgt
    exact ⟨a, n, h1, h2, fun ha hn => hv ▸ age_sound ha hn h3⟩

/-- A request with `max_age` that goes on, and one (five seconds too old) that does not. -/
example : returnedTrue (consentedWorld.run (handleRequest .default Sample.lib (promptGet [] [(b!"max_age", b!"200")]))) = true ∧
    returnedTrue (consentedWorld.run (handleRequest .default Sample.lib (promptGet [] [(b!"max_age", b!"195")]))) = false ∧
    SignedDecimal b!"200" 200 ∧ (promptGet [] [(b!"max_age", b!"200")]).formValue b!"prompt" ≠ b!"none" := by
  refine ⟨by decide +kernel, by decide +kernel, ⟨b!"200", ⟨by decide, by decide⟩, .inl ⟨rfl, by decide⟩⟩, by decide +kernel⟩

/-- A success in a sample world, with all calls answered by it. -/
theorem world_success' {w : Sample.World} {p : Prog Bool}
    (h1 : returnedTrue (w.run p) = true) (h2 : (lastWrite (w.run p).1).isSome = true) :
    ∃ pre resp, Runs p (pre ++ [wrote resp]) (.ok true) ∧ ∀ e ∈ pre, e.r = w.answer e.q := by
  have hr := w.runs p
  have ha := exec_answers w.answer p
  cases hl : lastWrite (w.run p).1 with
  | none => rw [hl] at h2; cases h2
  | some resp =>
    obtain ⟨pre, hp⟩ := lastWrite_eq hl
    rw [hp] at hr
    refine ⟨pre, resp, ?_, fun e he => ha e (by
      show e ∈ (w.run p).1
      rw [hp]; simp [he])⟩
    cases ho : (w.run p).2.1 with
    | panic => unfold returnedTrue at h1; rw [show w.run p = ((w.run p).1, (w.run p).2.1, (w.run p).2.2) from rfl, ho] at h1; cases h1
    | ok b =>
      cases b with
      | true => rw [ho] at hr; exact hr
      | false => unfold returnedTrue at h1; rw [show w.run p = ((w.run p).1, (w.run p).2.1, (w.run p).2.2) from rfl, ho] at h1; cases h1

/-- C35 as stated in the property list fails: with `prompt=none` and `max_age=60` a login that is 200
seconds old is accepted. -/
theorem C35_false : ∃ (r : Req) (pre : List Event) (resp : HttpResp),
    Runs (handleRequest .default Sample.lib r) (pre ++ [wrote resp]) (.ok true) ∧
    SignedDecimal (r.formValue b!"max_age") 60 ∧
    (∀ e ∈ pre, ∀ a, e = ⟨.getAuthTime, a⟩ → a = some 800) ∧ (∀ e ∈ pre, ∀ n, e = ⟨.now, n⟩ → n = 1000) := by
  obtain ⟨pre, resp, h, ha⟩ := world_success' (w := consentedWorld)
    (p := handleRequest .default Sample.lib (promptGet b!"none" [(b!"max_age", b!"60")]))
    (by decide +kernel) (by decide +kernel)
  refine ⟨promptGet b!"none" [(b!"max_age", b!"60")], pre, resp, h, ⟨b!"60", ⟨by decide, by decide⟩, .inl ⟨by decide +kernel, by decide⟩⟩, ?_, ?_⟩
  · rintro e he a rfl
    exact ha _ he
  · rintro e he n rfl
    exact ha _ he

/-! ## C36 -/

/-- C36: with `login` among the prompts the endpoint goes on only if the application said that the
request comes from the login screen. -/
theorem C36_reauthenticated (h : Proceeded policy lib r pre) {ps : List GoStr}
    (hw : Words (r.formValue b!"prompt") ps) (hl : b!"login" ∈ ps) : ⟨.requestIsFromLogin, some true⟩ ∈ pre := by
  obtain ⟨clnt, f, req, _, hb, hn | hpass⟩ := proceeded_passed h
  · have h1 : r.formValue b!"prompt" = b!"none" := hb.prompt.symm.trans hn.1
    rw [h1] at hw
    have h2 : ps = [b!"none"] := words_unique hw (by decide +kernel)
    rw [h2] at hl
    exact absurd hl (by decide)
  · refine hpass.2.1 ?_
    rw [hb.prompt]
    exact (C48_prompt_include_iff hw).2 hl

/-- C36: when the application says that the request does not come from the login screen, the login
screen is shown, it is the last thing that happens, and the endpoint returns false. -/
theorem C36_login_shown {o : Outcome Bool} (h : Runs (handleRequest policy lib r) t o)
    (hd : ⟨.requestIsFromLogin, some false⟩ ∈ t) :
    o = .ok false ∧ ∃ pre req shown, t = pre ++ [⟨.showLoginScreen req, shown⟩] := handleRequest_denied h hd

/-- A request with `prompt=login consent` that comes from the login screen goes on to the consent
screen; one that does not is shown the login screen. -/
example :
    (({ consentedWorld with fromLogin := some true } : Sample.World).run
      (handleRequest .default Sample.lib (promptGet b!"login consent" []))).1.any
        (fun e => match e.q with | .showConsentScreen _ _ => true | _ => false) = true ∧
    (consentedWorld.run (handleRequest .default Sample.lib (promptGet b!"login consent" []))).1.any
        (fun e => match e.q with | .showLoginScreen _ => true | _ => false) = true := by decide +kernel

/-! ## C37 -/

/-- C37: a success response without the consent screen. -/
theorem C37_consent_skipped (h : Runs (handleRequest policy lib r) (pre ++ [wrote resp]) (.ok true)) {ps : List GoStr}
    (hw : Words (r.formValue b!"prompt") ps) :
    b!"consent" ∉ ps ∧ ∃ clnt f info scope, FoundClient r clnt pre ∧
      Asks (r.formValue b!"response_type") f ∧
      EffectiveScope f.type (r.formValue b!"prompt") (r.formValue b!"scope") scope ∧
      Consented policy (r.formValue b!"client_id") scope info pre ∧
      (r.formValue b!"prompt" = b!"none" ∨ clnt.noConsentPromptPolicy = .omitConsentIfCan) := by
  obtain ⟨c, f, req, info, before, w, a, _, rfl, hs⟩ := handleRequest_true h
  have hsub : ∀ e ∈ before, e ∈ before ++ w ++ a := fun e he => by simp [he]
  have hc := consented_mono (covered_consented hs.covered) hsub
  rw [hs.built.clientId] at hc
  refine ⟨?_, c, f, info, req.scope, foundClient_mono hs.found hsub, asks_iff.2 hs.built.judged, built_scope hs.built, hc, ?_⟩
  · intro hcon
    have h1 : Prompt.includeConsent req.prompt = true := by
      rw [hs.built.prompt]; exact (C48_prompt_include_iff hw).2 hcon
    rcases hs.path with hn | ⟨_, h2, _⟩
    · rw [hn.1] at h1; exact absurd h1 (by decide +kernel)
    · rw [h1] at h2; cases h2
  · rcases hs.path with hn | ⟨_, _, h2, _⟩
    · exact .inl (hs.built.prompt.symm.trans hn.1)
    · exact .inr h2

/-- A response without the consent screen, and a consent screen when the policy forces it or the
consent is one second too old. -/
example : returnedTrue (consentedWorld.run (handleRequest .default Sample.lib codeGet)) = true ∧
    (consentedWorld.status (handleRequest .default Sample.lib codeGet)) = some 302 ∧
    (({ consentedWorld with client := (some { Sample.client with noConsentPromptPolicy := .forceConsent }, none) } :
      Sample.World).run (handleRequest .default Sample.lib codeGet)).1.any
        (fun e => match e.q with | .showConsentScreen _ _ => true | _ => false) = true ∧
    (({ consentedWorld with now := 900 + 86400 } : Sample.World).run (handleRequest .default Sample.lib codeGet)).1.any
        (fun e => match e.q with | .showConsentScreen _ _ => true | _ => false) = true := by decide +kernel

end Goidc.Props
