import Verif.Lemmas.AuthUnique
import Verif.Props.AuthComplete

/-! # C70–C74: the decision table of the authorization endpoint -/

namespace Goidc.Props

open Spec AuthzEndpoint

variable {policy : Policy} {lib : Lib} {r : Req} {clnt : Client} {req : Request} {f : Flow} {scope code : GoStr}
  {t c c0 c1 c2 c3 c4 : List Event} {o : Outcome Bool} {e : Spec.Ending}

/-! ## A concrete request -/

/-- The calls up to the point where the parameters of the sample request are in order. -/
def readyCalls (clnt : Client) : List Event :=
  [⟨.findClientById b!"client", (some clnt, none)⟩, ⟨.chooseLocale [], some []⟩]

/-- The request object of the sample request. -/
noncomputable def readyReq (p : GoStr) (more : Params) : Request :=
  requestFrom .default (promptGet p more) ⟨.authorizationCode, false, false⟩ b!"openid" [] 0

/-- The sample request is valid, for any client that may send it. -/
theorem sample_ready {p : GoStr} {more : Params} (hp : p = [] ∨ p = b!"none" ∨ p = b!"login")
    (hm : more = [] ∨ more = [(b!"login_hint", b!"u")] ∨ more = [(b!"id_token_hint", b!"h")])
    (h1 : clnt.canUseRedirectURI b!"https://app/cb" = true) (h2 : clnt.canUseFlow .authorizationCode = true)
    (h3 : clnt.canUseScope .authorizationCode b!"openid" = true) :
    Ready .default (promptGet p more) clnt (readyReq p more) (readyCalls clnt) ∧ (readyReq p more).prompt = p := by
  have v : (promptGet p more).formValue b!"client_id" = b!"client" ∧
      (promptGet p more).formValue b!"redirect_uri" = b!"https://app/cb" ∧
      (promptGet p more).formValue b!"response_type" = b!"code" ∧ (promptGet p more).formValue b!"scope" = b!"openid" ∧
      (promptGet p more).formValue b!"prompt" = p ∧ (promptGet p more).formValue b!"response_mode" = [] ∧
      (promptGet p more).formValue b!"display" = [] ∧ (promptGet p more).formValue b!"max_age" = [] ∧
      (promptGet p more).formValue b!"nonce" = [] ∧ (promptGet p more).formValue b!"code_verifier" = [] ∧
      (promptGet p more).formValue b!"ui_locales" = [] := by
    rcases hp with rfl | rfl | rfl <;> rcases hm with rfl | rfl | rfl <;> decide +kernel
  obtain ⟨v1, v2, v3, v4, v5, v6, v7, v8, v9, v10, v11⟩ := v
  have ha : Asks ((promptGet p more).formValue b!"response_type") ⟨.authorizationCode, false, false⟩ := by
    rw [v3]; exact asks_iff.2 (by decide +kernel)
  have hw : ∀ {s : GoStr} {ws}, Words s ws → ws = split 32 s := fun h => (fields_iff.1 h).symm
  have hs : EffectiveScope .authorizationCode ((promptGet p more).formValue b!"prompt")
      ((promptGet p more).formValue b!"scope") b!"openid" := by
    intro ws ps h h'
    rw [v4] at h ⊢
    rw [hw h, if_neg]
    exact fun h => absurd h.1 (by decide +kernel)
  have hf : ∀ x ∈ faults .default clnt (promptGet p more) ⟨.authorizationCode, false, false⟩ b!"openid", ¬ x.1 := by
    unfold faults
    rw [v3, v4, v5, v6, v7, v8, v9, v10, h2, h3]
    have hi : ¬ HasWord b!"code" b!"id_token" := fun h => absurd (hasWord_iff.1 h) (by decide +kernel)
    have ho : ¬ HasWord b!"openid" b!"offline_access" := fun h => absurd (hasWord_iff.1 h) (by decide +kernel)
    have hq : ¬ (∀ ws, Words p ws → ¬ ((∀ w ∈ ws, w ∈ [b!"none", b!"login", b!"consent", b!"select_account"]) ∧
        (b!"none" ∈ ws → ∀ w ∈ ws, w = b!"none"))) ∨ p = [] := by
      rcases hp with rfl | rfl | rfl
      · exact .inr rfl
      · exact .inl fun h => h [b!"none"] (fields_iff.2 (by decide +kernel)) (by decide +kernel)
      · exact .inl fun h => h [b!"login"] (fields_iff.2 (by decide +kernel)) (by decide +kernel)
    simp only [List.mem_cons, List.not_mem_nil, or_false, forall_eq_or_imp, forall_eq, hi, ho, false_and, not_false_eq_true,
      and_true, true_and, Bool.true_eq_false, ne_eq, not_true_eq_false]
    refine ⟨?_, by simp, ?_, by simp⟩
    · rintro ⟨h, -⟩
      exact absurd h (by decide +kernel)
    · rintro ⟨h, h'⟩
      exact hq.elim (fun hq => hq fun ws hw h0 => h' ws hw (by simpa using h0)) h
  refine ⟨⟨[⟨.findClientById b!"client", (some clnt, none)⟩], [⟨.chooseLocale [], some []⟩], rfl, ?_, ?_⟩, v5⟩
  · have := Identification.known (r := promptGet p more) (c := clnt) (e := none) (by rw [v1]; decide +kernel)
      (by rw [v2]; decide +kernel) (.inl rfl) (by rw [v2]; exact h1)
    rwa [v1] at this
  · have := Checked.ok (policy := .default) (r := promptGet p more) (clnt := clnt) (locale := []) (maxAge := 0) ha hs hf
      (.inl ⟨v8, rfl⟩)
    rwa [v11] at this

/-! ## C70 -/

/-- C70: every run of `HandleRequest` follows a row of the table: it makes the calls of the row, with these
answers, and ends as the row says. -/
theorem C70_table (h : Runs (handleRequest policy lib r) t o) :
    ∃ c e, Handled policy lib r c (.inr e) ∧
      Ends lib (r.formValue b!"redirect_uri") (r.formValue b!"state") t o c e := handleRequest_table h

/-- C70: the table is unambiguous.  A run that answers none of the calls of a row differently makes
exactly the calls of this row and ends as it says (with some ID token if the row has one). -/
theorem C70_unambiguous (h : Runs (handleRequest policy lib r) t o) (hc : Handled policy lib r c (.inr e))
    (hf : ¬ Fork (interactions t) c) :
    ∃ e', e'.Alike e ∧ Handled policy lib r c (.inr e') ∧
      Ends lib (r.formValue b!"redirect_uri") (r.formValue b!"state") t o c e' := by
  obtain ⟨c', e', h1, h2⟩ := handleRequest_table h
  rcases joint_handled c' c _ _ h1 hc with ⟨rfl, h3⟩ | h3
  · exact ⟨e', h3, h1, h2⟩
  · exact absurd (ends_fork h2 h3) hf

/-- C70: every row of the table occurs. -/
theorem C70_realised (hc : Handled policy lib r c (.inr e)) :
    ∃ t o e', Runs (handleRequest policy lib r) t o ∧ e'.Alike e ∧
      Ends lib (r.formValue b!"redirect_uri") (r.formValue b!"state") t o c e' := by
  obtain ⟨t, o, h, hf⟩ := run_following (handleRequest policy lib r) c
  obtain ⟨e', h1, _, h2⟩ := C70_unambiguous h hc hf
  exact ⟨t, o, e', h, h1, h2⟩

/-- A row other than a success, whose calls happen, is followed exactly. -/
theorem follows (h : Runs (handleRequest policy lib r) t o) (hc : Handled policy lib r c (.inr e))
    (hp : c <+: interactions t) (hn : ∀ m p, e ≠ .success m p) :
    Ends lib (r.formValue b!"redirect_uri") (r.formValue b!"state") t o c e := by
  obtain ⟨e', h1, _, h2⟩ := row_followed h hc hp
  rwa [alike_eq h1 hn] at h2

example : (∃ t o, Runs (handleRequest .default Sample.lib codeGet) t o) ∧
    (∃ c e, Handled .default Sample.lib codeGet c (.inr e)) := by
  have h := consentedWorld.runs (handleRequest .default Sample.lib codeGet)
  obtain ⟨c, e, h', -⟩ := C70_table h
  exact ⟨⟨_, _, h⟩, c, e, h'⟩

/-- C70: without `client_id` the only thing that happens is the error screen for an unknown client; without
`redirect_uri` the one for a missing redirect URI; the endpoint returns false. -/
theorem C70_missing (h : Runs (handleRequest policy lib r) t o) :
    (r.formValue b!"client_id" = [] → interactions t = [⟨.showErrorScreen 0, ()⟩] ∧ o = .ok false) ∧
    (r.formValue b!"client_id" ≠ [] → r.formValue b!"redirect_uri" = [] →
      interactions t = [⟨.showErrorScreen 1, ()⟩] ∧ o = .ok false) := by
  obtain ⟨c, e, h1, h2⟩ := C70_table h
  rcases h1 with ⟨e, h, h1⟩ | ⟨c1, c2, clnt, rfl, h1, -⟩
  · cases h
    cases h1 <;> simp_all [Ends]
  · cases h1
    simp_all

/-- C70: a client the application does not know, and a redirect URI the client may not use, are answered by an
error screen, and the endpoint returns false. -/
theorem C70_not_allowed (h : Runs (handleRequest policy lib r) t o)
    (h1 : r.formValue b!"client_id" ≠ []) (h2 : r.formValue b!"redirect_uri" ≠ []) :
    (∀ x, [⟨.findClientById (r.formValue b!"client_id"), (x, some .failed)⟩] <+: interactions t →
      interactions t = [⟨.findClientById (r.formValue b!"client_id"), (x, some .failed)⟩, ⟨.showErrorScreen 0, ()⟩] ∧
        o = .ok false) ∧
    (∀ clnt, [⟨.findClientById (r.formValue b!"client_id"), (some clnt, none)⟩] <+: interactions t →
      clnt.canUseRedirectURI (r.formValue b!"redirect_uri") = false →
      interactions t = [⟨.findClientById (r.formValue b!"client_id"), (some clnt, none)⟩, ⟨.showErrorScreen 2, ()⟩] ∧
        o = .ok false) := by
  obtain ⟨c, e, h3, h4⟩ := C70_table h
  have key : ∀ {c e}, Identification r c (.inr e) → Handled policy lib r c (.inr e) := fun h => .inl ⟨_, rfl, h⟩
  constructor
  · intro x hp
    have hrow := key (Identification.unknownClient (r := r) (c := x) h1 h2)
    obtain ⟨b, s', hs⟩ := row_next (c0 := [⟨.findClientById (r.formValue b!"client_id"), (x, some .failed)⟩]) h hrow hp
    exact follows h hrow (by rw [hs]; exact ⟨s', by cases b; rfl⟩) (by simp)
  · intro clnt hp hu
    have hrow := key (Identification.notAllowed (r := r) (c := clnt) (e := none) h1 h2 (.inl rfl) hu)
    obtain ⟨b, s', hs⟩ := row_next (c0 := [⟨.findClientById (r.formValue b!"client_id"), (some clnt, none)⟩]) h hrow hp
    exact follows h hrow (by rw [hs]; exact ⟨s', by cases b; rfl⟩) (by simp)

/-- Requests that meet the hypotheses. -/
example : (⟨b!"GET", b!"/", [], [], [], false⟩ : Req).formValue b!"client_id" = [] ∧
    codeGet.formValue b!"client_id" ≠ [] ∧ codeGet.formValue b!"redirect_uri" ≠ [] ∧
    ({ Sample.client with canUseRedirectURI := fun _ => false } : Client).canUseRedirectURI
      (codeGet.formValue b!"redirect_uri") = false ∧
    Identification codeGet [⟨.findClientById (codeGet.formValue b!"client_id"), (none, some .failed)⟩,
      ⟨.showErrorScreen 0, ()⟩] (.inr (.stop false)) :=
  ⟨by decide +kernel, by decide +kernel, by decide +kernel, by decide +kernel,
    .unknownClient (by decide +kernel) (by decide +kernel)⟩

/-! ## C71 -/

/-- C71: once the client is identified, a request without response type is answered with `invalid_request` in the
response mode it asked for, and nothing else happens. -/
theorem C71_no_response_type (h : Runs (handleRequest policy lib r) t o) (hi : Identification r c0 (.inl clnt))
    (hp : c0 <+: interactions t) (ha : r.formValue b!"response_type" = []) :
    Ends lib (r.formValue b!"redirect_uri") (r.formValue b!"state") t o c0
      (.error (r.formValue b!"response_mode") b!"invalid_request" b!"missing 'response_type'") := by
  refine follows h (.inr ⟨c0, [], clnt, by simp, hi, .inl ⟨_, rfl, .noResponseType ha⟩⟩) hp (by simp)

/-- C71: once the client is identified, a request whose response type names no flow is answered with
`invalid_request` in the response mode it asked for, with the response type in the description, and nothing else
happens. -/
theorem C71_response_type (h : Runs (handleRequest policy lib r) t o) (hi : Identification r c0 (.inl clnt))
    (hp : c0 <+: interactions t) (hn : r.formValue b!"response_type" ≠ [])
    (ha : ∀ f, ¬ Asks (r.formValue b!"response_type") f) :
    Ends lib (r.formValue b!"redirect_uri") (r.formValue b!"state") t o c0
      (.error (r.formValue b!"response_mode") b!"invalid_request"
        (b!"invalid 'response_type:" ++ r.formValue b!"response_type" ++ b!"'")) := by
  refine follows h (.inr ⟨c0, [], clnt, by simp, hi, .inl ⟨_, rfl, .responseType hn ha⟩⟩) hp (by simp)

/-- C71: once the client is identified, a request with faults is answered with the error code and the description
of the first one, in the response mode to use for its flow, and nothing else happens. -/
theorem C71_first_fault (h : Runs (handleRequest policy lib r) t o) (hi : Identification r c0 (.inl clnt))
    (hp : c0 <+: interactions t) (ha : Asks (r.formValue b!"response_type") f)
    (hs : EffectiveScope f.type (r.formValue b!"prompt") (r.formValue b!"scope") scope)
    (hf : FirstFault (faults policy clnt r f scope) code desc) :
    Ends lib (r.formValue b!"redirect_uri") (r.formValue b!"state") t o c0
      (.error (modeUsed policy f (r.formValue b!"response_mode")) code desc) :=
  follows h (.inr ⟨c0, [], clnt, by simp, hi, .inl ⟨_, rfl, .fault ha hs hf⟩⟩) hp (by simp)

/-- C71: once the client is identified, a request without faults goes on: the next call asks for the locale, and
if it is answered the request object has exactly the parameters of the request. -/
theorem C71_valid (h : Runs (handleRequest policy lib r) t o) (hi : Identification r c0 (.inl clnt))
    (hp : c0 <+: interactions t) (ha : Asks (r.formValue b!"response_type") f)
    (hs : EffectiveScope f.type (r.formValue b!"prompt") (r.formValue b!"scope") scope)
    (hf : ∀ x ∈ faults policy clnt r f scope, ¬ x.1) :
    ∃ ans rest, interactions t = c0 ++ ⟨.chooseLocale (r.formValue b!"ui_locales"), ans⟩ :: rest ∧
      (ans = none → Ends lib (r.formValue b!"redirect_uri") (r.formValue b!"state") t o
        (c0 ++ [⟨.chooseLocale (r.formValue b!"ui_locales"), none⟩])
        (.error (modeUsed policy f (r.formValue b!"response_mode")) b!"server_error" [])) ∧
      (∀ locale, ans = some locale → ∃ maxAge, Ready policy r clnt (requestFrom policy r f scope locale maxAge)
        (c0 ++ [⟨.chooseLocale (r.formValue b!"ui_locales"), some locale⟩])) := by
  have hrow : Handled policy lib r (c0 ++ [⟨.chooseLocale (r.formValue b!"ui_locales"), none⟩]) (.inr _) :=
    .inr ⟨c0, _, clnt, rfl, hi, .inl ⟨_, rfl, .noLocale ha hs hf⟩⟩
  obtain ⟨b, s', h'⟩ := row_next h hrow hp
  refine ⟨b, s', h', ?_, ?_⟩
  · rintro rfl
    exact follows h hrow ⟨s', by rw [h']; simp⟩ (by simp)
  · rintro locale rfl
    have hage : ∃ m : Int64, r.formValue b!"max_age" = [] ∧ m.toInt = 0 ∨
        r.formValue b!"max_age" ≠ [] ∧ SignedDecimal (r.formValue b!"max_age") m.toInt := by
      by_cases hm : r.formValue b!"max_age" = []
      · exact ⟨0, .inl ⟨hm, rfl⟩⟩
      · have := hf (_, b!"invalid_request", _)
          (by unfold faults; simp only [List.mem_cons]; exact .inr (.inr (.inr (.inr (.inl rfl)))))
        simp only [not_and] at this
        have := this hm
        simp only [Classical.not_forall, Classical.not_not] at this
        obtain ⟨m, hd⟩ := this
        exact ⟨m, .inr ⟨hm, hd⟩⟩
    obtain ⟨m, hm⟩ := hage
    exact ⟨m, c0, _, rfl, hi, .ok ha hs hf hm⟩

theorem firstFault_third {p q s : Prop} {a b : GoStr × GoStr} {l : List (Prop × GoStr × GoStr)} (h1 : ¬ p) (h2 : ¬ q)
    (h3 : s) : FirstFault ((p, a) :: (q, b) :: (s, code, desc) :: l) code desc :=
  ⟨[(p, a), (q, b)], s, l, rfl, by simp [h1, h2], h3⟩

/-- A valid request, an unknown response type, and a request with two faults, of which the first is reported. -/
example : (∃ c, Identification (promptGet b!"login" []) c (.inl Sample.client) ∧
      ∀ f, Asks ((promptGet b!"login" []).formValue b!"response_type") f → f.type = .authorizationCode) ∧
    (∀ f, ¬ Asks b!"code none" f) ∧
    FirstFault (faults .default { Sample.client with canUseFlow := fun _ => false }
      (authGet [(b!"response_type", b!"code"), (b!"display", b!"tv")]) ⟨.authorizationCode, false, false⟩ [])
      b!"unauthorized_client" [] := by
  refine ⟨?_, ?_, ?_⟩
  · obtain ⟨⟨c1, _, _, h, _⟩, _⟩ := sample_ready (clnt := Sample.client) (p := b!"login") (.inr (.inr rfl)) (.inl rfl)
      (by decide +kernel) (by decide +kernel) (by decide +kernel)
    refine ⟨c1, h, fun f hf => ?_⟩
    have h1 := asks_iff.1 hf
    have h2 : Flow.judgeByResponseType ((promptGet b!"login" []).formValue b!"response_type") =
        some ⟨.authorizationCode, false, false⟩ := by decide +kernel
    rw [h2] at h1
    cases h1
    rfl
  · intro f hf
    have h1 := asks_iff.1 hf
    have h2 : Flow.judgeByResponseType b!"code none" = none := by decide +kernel
    rw [h2] at h1
    cases h1
  · exact firstFault_third (by rintro ⟨h, -⟩; exact absurd h (by decide +kernel))
      (by rintro ⟨h, -⟩; exact absurd h (by decide +kernel)) rfl

/-! ## C72 -/

theorem ready_row (hr : Ready policy r clnt req c0) (hd : Decided policy lib clnt req c1 (.inr e)) :
    Handled policy lib r (c0 ++ c1) (.inr e) := by
  obtain ⟨a, b, rfl, h1, h2⟩ := hr
  exact .inr ⟨a, b ++ c1, clnt, by simp, h1, .inr ⟨b, c1, req, rfl, h2, hd⟩⟩

theorem silent_row (hp : req.prompt = b!"none") (hs : Spec.Silent policy lib clnt req c1 (.inr e)) :
    Decided policy lib clnt req c1 (.inr e) := .inl ⟨e, rfl, .inl ⟨hp, hs⟩⟩

/-- C72: with the Forbidden policy a valid `prompt=none` request is answered with `interaction_required`. -/
theorem C72_interaction_required (h : Runs (handleRequest policy lib r) t o) (hr : Ready policy r clnt req c0)
    (ht : c0 <+: interactions t) (hp : req.prompt = b!"none") (hc : clnt.nonePromptPolicy = .forbidden) :
    Ends lib (r.formValue b!"redirect_uri") (r.formValue b!"state") t o c0
      (.error req.responseMode b!"interaction_required" b!"not allowed to use 'prompt:none'") := by
  have := ready_row (lib := lib) (c1 := []) hr (silent_row hp (by unfold Spec.Silent; rw [hc]; exact ⟨rfl, rfl⟩))
  exact follows h (by simpa using this) ht (by simp)

/-- C72: with the AllowWithLoginSession policy the next call asks for the login session, and without one the
request is answered with `login_required`. -/
theorem C72_login_required (h : Runs (handleRequest policy lib r) t o) (hr : Ready policy r clnt req c0)
    (ht : c0 <+: interactions t) (hp : req.prompt = b!"none") (hc : clnt.nonePromptPolicy = .allowWithLoginSession) :
    ∃ ans rest, interactions t = c0 ++ ⟨.confirmLoginSession, ans⟩ :: rest ∧
      (ans = some false → Ends lib (r.formValue b!"redirect_uri") (r.formValue b!"state") t o
        (c0 ++ [⟨.confirmLoginSession, some false⟩]) (.error req.responseMode b!"login_required" [])) := by
  have hrow := ready_row (lib := lib) (c1 := [⟨.confirmLoginSession, some false⟩]) hr
    (silent_row hp (by unfold Spec.Silent; rw [hc]; exact .inl ⟨_, rfl, .no⟩))
  obtain ⟨b, s', h'⟩ := row_next h hrow ht
  refine ⟨b, s', h', ?_⟩
  rintro rfl
  exact follows h hrow ⟨s', by rw [h']; simp⟩ (by simp)

/-- C72: with the AllowWithLoginSession policy and a login session, but without an earlier consent that covers
the request, it is answered with `consent_required`. -/
theorem C72_consent_required (h : Runs (handleRequest policy lib r) t o) (hr : Ready policy r clnt req c0)
    (hp : req.prompt = b!"none") (hc : clnt.nonePromptPolicy = .allowWithLoginSession)
    (he : EarlierConsent policy req c1 (.inl none))
    (ht : c0 ++ ⟨.confirmLoginSession, some true⟩ :: c1 <+: interactions t) :
    Ends lib (r.formValue b!"redirect_uri") (r.formValue b!"state") t o (c0 ++ ⟨.confirmLoginSession, some true⟩ :: c1)
      (.error req.responseMode b!"consent_required" []) := by
  refine follows h (ready_row hr (silent_row hp ?_)) ht (by simp)
  unfold Spec.Silent; rw [hc]
  exact .inr ⟨[⟨.confirmLoginSession, some true⟩], c1, (), rfl, .yes, _, rfl, .inr ⟨c1, [], none, by simp, he, rfl, rfl⟩⟩

/-- C72: with the AllowIfLoginHintMatched policy a request without `login_hint` is answered with
`invalid_request`. -/
theorem C72_login_hint_missing (h : Runs (handleRequest policy lib r) t o) (hr : Ready policy r clnt req c0)
    (ht : c0 <+: interactions t) (hp : req.prompt = b!"none") (hc : clnt.nonePromptPolicy = .allowIfLoginHintMatched)
    (hl : req.loginHint = []) :
    Ends lib (r.formValue b!"redirect_uri") (r.formValue b!"state") t o c0
      (.error req.responseMode b!"invalid_request"
        b!"in case you pass 'none' for 'prompt', 'login_hint' is required.") := by
  have := ready_row (lib := lib) (c1 := []) hr (silent_row hp (by unfold Spec.Silent; rw [hc]; exact .inl ⟨hl, rfl, rfl⟩))
  exact follows h (by simpa using this) ht (by simp)

/-- C72: with the AllowIfIdTokenHintMatched policy a request without `id_token_hint` is answered with
`invalid_request`. -/
theorem C72_id_token_hint_missing (h : Runs (handleRequest policy lib r) t o) (hr : Ready policy r clnt req c0)
    (ht : c0 <+: interactions t) (hp : req.prompt = b!"none") (hc : clnt.nonePromptPolicy = .allowIfIdTokenHintMatched)
    (hl : req.idTokenHint = []) :
    Ends lib (r.formValue b!"redirect_uri") (r.formValue b!"state") t o c0
      (.error req.responseMode b!"invalid_request"
        b!"in case you pass 'none' for 'prompt', 'id_token_hint' is required.") := by
  have := ready_row (lib := lib) (c1 := []) hr (silent_row hp (by
    unfold Spec.Silent; rw [hc]; exact .inl ⟨_, rfl, .missing hl⟩))
  exact follows h (by simpa using this) ht (by simp)

/-- C72: with the AllowIfIdTokenHintMatched policy a request with an `id_token_hint` that is not a JWT with a known
algorithm is answered with `invalid_request`, and no clock is read. -/
theorem C72_id_token_hint_unreadable (h : Runs (handleRequest policy lib r) t o) (hr : Ready policy r clnt req c0)
    (ht : c0 <+: interactions t) (hp : req.prompt = b!"none") (hc : clnt.nonePromptPolicy = .allowIfIdTokenHintMatched)
    (hn : req.idTokenHint ≠ []) (hl : ¬ ReadableHint lib req.idTokenHint) :
    Ends lib (r.formValue b!"redirect_uri") (r.formValue b!"state") t o c0
      (.error req.responseMode b!"invalid_request" b!"'id_token_hint' is invalid.") := by
  have := ready_row (lib := lib) (c1 := []) hr (silent_row hp (by
    unfold Spec.Silent; rw [hc]; exact .inl ⟨_, rfl, .unreadable hn hl⟩))
  exact follows h (by simpa using this) ht (by simp)

/-- C72: with the AllowIfIdTokenHintMatched policy a JWT is judged at the time the clock shows: one that is not valid
under the client's ID token key, that has no `exp` or that has no `sub` is answered with `invalid_request`, and the
description says which. -/
theorem C72_id_token_hint_refused (h : Runs (handleRequest policy lib r) t o) (hr : Ready policy r clnt req c0)
    (ht : c0 <+: interactions t) (hp : req.prompt = b!"none") (hc : clnt.nonePromptPolicy = .allowIfIdTokenHintMatched)
    (hn : req.idTokenHint ≠ []) (hl : ReadableHint lib req.idTokenHint) :
    ∃ now rest, interactions t = c0 ++ ⟨.wallNow, now⟩ :: rest ∧
      ((∀ tk, ¬ ValidHint lib clnt req.idTokenHint tk now) →
        Ends lib (r.formValue b!"redirect_uri") (r.formValue b!"state") t o (c0 ++ [⟨.wallNow, now⟩])
          (.error req.responseMode b!"invalid_request" b!"'id_token_hint' is invalid.")) ∧
      (∀ tk, ValidHint lib clnt req.idTokenHint tk now → ¬ SaysExpiry tk →
        Ends lib (r.formValue b!"redirect_uri") (r.formValue b!"state") t o (c0 ++ [⟨.wallNow, now⟩])
          (.error req.responseMode b!"invalid_request" b!"'exp' not found in 'id_token_hint'.")) ∧
      (∀ tk, ValidHint lib clnt req.idTokenHint tk now → SaysExpiry tk → tk.claimStr b!"sub" = none →
        Ends lib (r.formValue b!"redirect_uri") (r.formValue b!"state") t o (c0 ++ [⟨.wallNow, now⟩])
          (.error req.responseMode b!"invalid_request" b!"'sub' not found in 'id_token_hint'.")) := by
  have row : ∀ {c e}, HintNeeded lib clnt req c (.inr e) → Handled policy lib r (c0 ++ c) (.inr e) := fun h =>
    ready_row hr (silent_row hp (by unfold Spec.Silent; rw [hc]; exact .inl ⟨_, rfl, h⟩))
  have row' : ∀ {sub now}, GoodHint lib clnt req.idTokenHint sub now →
      Handled policy lib r (c0 ++ ⟨.wallNow, now⟩ :: [⟨.loginUserIsMatchedToSubject sub, none⟩])
        (.inr (.error req.responseMode b!"server_error" [])) := fun {sub now} h =>
    ready_row hr (silent_row hp (by
      unfold Spec.Silent; rw [hc]
      exact .inr ⟨[⟨.wallNow, now⟩], _, _, rfl, .good hn hl h, .inl ⟨_, rfl, .broke⟩⟩))
  have hnext : ∃ now rest, interactions t = c0 ++ ⟨.wallNow, now⟩ :: rest := by
    by_cases h1 : ∃ tk, ValidHint lib clnt req.idTokenHint tk 0
    · obtain ⟨tk, h1⟩ := h1
      by_cases h2 : SaysExpiry tk
      · cases h3 : tk.claimStr b!"sub" with
        | none => exact row_next h (row (.noSubject hn hl h1 h2 h3)) ht
        | some sub => exact row_next h (row' ⟨tk, h1, h2, h3⟩) ht
      · exact row_next h (row (.noExpiry hn hl h1 h2)) ht
    · exact row_next h (row (.invalid (now := 0) hn hl fun tk h => h1 ⟨tk, h⟩)) ht
  obtain ⟨now, rest, h'⟩ := hnext
  refine ⟨now, rest, h', fun h1 => ?_, fun tk h1 h2 => ?_, fun tk h1 h2 h3 => ?_⟩
  · exact follows h (row (.invalid hn hl h1)) ⟨rest, by rw [h']; simp⟩ (by simp)
  · exact follows h (row (.noExpiry hn hl h1 h2)) ⟨rest, by rw [h']; simp⟩ (by simp)
  · exact follows h (row (.noSubject hn hl h1 h2 h3)) ⟨rest, by rw [h']; simp⟩ (by simp)

/-- C72: with the AllowIfIdTokenHintMatched policy the login user has to be the subject of a valid hint; otherwise
the request is answered with `invalid_request`. -/
theorem C72_id_token_hint_mismatch (h : Runs (handleRequest policy lib r) t o) (hr : Ready policy r clnt req c0)
    (hp : req.prompt = b!"none") (hc : clnt.nonePromptPolicy = .allowIfIdTokenHintMatched) {sub : GoStr}
    (hl : HintNeeded lib clnt req c1 (.inl sub)) (ht : c0 ++ c1 <+: interactions t) :
    ∃ ans rest, interactions t = (c0 ++ c1) ++ ⟨.loginUserIsMatchedToSubject sub, ans⟩ :: rest ∧
      (ans = some false → Ends lib (r.formValue b!"redirect_uri") (r.formValue b!"state") t o
        ((c0 ++ c1) ++ [⟨.loginUserIsMatchedToSubject sub, some false⟩])
        (.error req.responseMode b!"invalid_request" b!"'id_token_hint' doesn't match to current login user")) := by
  have hrow : Handled policy lib r ((c0 ++ c1) ++ [⟨.loginUserIsMatchedToSubject sub, some false⟩])
      (.inr (.error req.responseMode b!"invalid_request" b!"'id_token_hint' doesn't match to current login user")) := by
    rw [List.append_assoc]
    refine ready_row hr (silent_row hp ?_)
    unfold Spec.Silent; rw [hc]
    exact .inr ⟨c1, _, sub, rfl, hl, .inl ⟨_, rfl, .no⟩⟩
  obtain ⟨b, s', h'⟩ := row_next h hrow ht
  refine ⟨b, s', h', ?_⟩
  rintro rfl
  exact follows h hrow ⟨s', by rw [h']; simp⟩ (by simp)

/-- The hypotheses are met: a valid `prompt=none` request for each of the policies, no earlier consent, and hints. -/
example (pol : Prompt.NonePromptPolicy) :
    (∃ c req, Ready .default (promptGet b!"none" []) { Sample.client with nonePromptPolicy := pol } req c ∧
      req.prompt = b!"none" ∧ req.loginHint = [] ∧ req.idTokenHint = [] ∧
      EarlierConsent .default req [⟨.getLoginUserId, some 5⟩,
        ⟨.findAuthInfoByUserIdAndClientId 5 req.clientId, (none, some .failed)⟩] (.inl none)) ∧
    (∃ req, req.idTokenHint = b!"h" ∧ Ready .default (promptGet b!"none" [(b!"id_token_hint", b!"h")])
      { Sample.client with nonePromptPolicy := pol } req
      (readyCalls { Sample.client with nonePromptPolicy := pol })) := by
  refine ⟨?_, ?_⟩
  · obtain ⟨h, hp⟩ := sample_ready (clnt := { Sample.client with nonePromptPolicy := pol }) (p := b!"none") (more := [])
      (.inr (.inl rfl)) (.inl rfl) (show Sample.client.canUseRedirectURI b!"https://app/cb" = true by decide +kernel) rfl
      (show Sample.client.canUseScope .authorizationCode b!"openid" = true by decide +kernel)
    exact ⟨_, _, h, hp, by show (promptGet b!"none" []).formValue b!"login_hint" = []; decide +kernel,
      by show (promptGet b!"none" []).formValue b!"id_token_hint" = []; decide +kernel, .notFound (by simp) (by simp)⟩
  · obtain ⟨h, hp⟩ := sample_ready (clnt := { Sample.client with nonePromptPolicy := pol }) (p := b!"none")
      (more := [(b!"id_token_hint", b!"h")]) (.inr (.inl rfl)) (.inr (.inr rfl)) (show Sample.client.canUseRedirectURI b!"https://app/cb" = true by decide +kernel) rfl
      (show Sample.client.canUseScope .authorizationCode b!"openid" = true by decide +kernel)
    exact ⟨_, by show (promptGet b!"none" [(b!"id_token_hint", b!"h")]).formValue b!"id_token_hint" = b!"h"; decide +kernel, h⟩

/-- A library that reads `h` as a JWT with these claims, signed with the key of the sample client. -/
def readsHint (claims : List (GoStr × JVal)) : Lib :=
  { Sample.lib with
    jwtDecode := fun s => if s = b!"h" then some ⟨b!"h", some b!"HS256", some b!"k1", claims⟩ else none
    jwtDecode_raw := by
      intro s t h
      split at h
      · rename_i hs; cases h; exact hs.symm
      · cases h }

theorem readsHint_valid {claims : List (GoStr × JVal)}
    (h1 : NotExpired 1000 (JwtToken.claim ⟨b!"h", some b!"HS256", some b!"k1", claims⟩ b!"exp"))
    (h2 : JwtToken.claim ⟨b!"h", some b!"HS256", some b!"k1", claims⟩ b!"iat" = none)
    (h3 : JwtToken.claim ⟨b!"h", some b!"HS256", some b!"k1", claims⟩ b!"nbf" = none) :
    ValidHint (readsHint claims) Sample.client b!"h" ⟨b!"h", some b!"HS256", some b!"k1", claims⟩ 1000 := by
  refine ⟨rfl, ⟨.bytes b!"key", rfl, verifies_iff.1 (by show Jwt.verifies Sample.lib b!"HS256" b!"h" (.bytes b!"key") = true; decide +kernel)⟩, h1, ?_, ?_⟩
  · rw [h2]; intro v h; cases h
  · rw [h3]; intro v h; cases h

/-- Hints: one that cannot be read, one that has expired, one that is valid but does not say when it expires, one that is
valid but does not say whom it is about, and a good one. -/
example : ¬ ReadableHint Sample.lib b!"h" ∧
    (ReadableHint (readsHint [(b!"exp", .float 999)]) b!"h" ∧
      ∀ tk, ¬ ValidHint (readsHint [(b!"exp", .float 999)]) Sample.client b!"h" tk 1000) ∧
    (∃ tk, ValidHint (readsHint [(b!"sub", .str b!"u")]) Sample.client b!"h" tk 1000 ∧ ¬ SaysExpiry tk) ∧
    (∃ tk, ValidHint (readsHint [(b!"exp", .float 1001)]) Sample.client b!"h" tk 1000 ∧ SaysExpiry tk ∧
      tk.claimStr b!"sub" = none) ∧
    GoodHint (readsHint [(b!"exp", .float 1001), (b!"sub", .str b!"u")]) Sample.client b!"h" b!"u" 1000 := by
  have later : NotExpired 1000 (some (.float 1001)) := expOk_iff.1 (by decide +kernel)
  refine ⟨?_, ⟨⟨_, _, rfl, rfl, by decide⟩, ?_⟩, ⟨_, readsHint_valid ?_ rfl rfl, ?_⟩,
    ⟨_, readsHint_valid later rfl rfl, ⟨1001, .inl rfl⟩, rfl⟩, _, readsHint_valid later rfl rfl, ⟨1001, .inl rfl⟩, rfl⟩
  · rintro ⟨tk, alg, h, _⟩
    exact absurd h (by rw [show Sample.lib.jwtDecode b!"h" = none by decide]; simp)
  · rintro tk ⟨h, _, he, _⟩
    cases h
    exact absurd (expOk_iff.2 he) (by decide +kernel)
  · intro v h; cases h
  · rintro ⟨n, h | h⟩ <;> cases h

/-! ## C73 -/

/-- C73: a valid request with another prompt than `none` needs a login session; without one the login screen is
shown for exactly this request, and if that works nothing else happens and the endpoint returns false. -/
theorem C73_login_screen (h : Runs (handleRequest policy lib r) t o) (hr : Ready policy r clnt req c0)
    (ht : c0 <+: interactions t) (hp : req.prompt ≠ b!"none") :
    ∃ ans rest, interactions t = c0 ++ ⟨.confirmLoginSession, ans⟩ :: rest ∧
      (ans = some false →
        (interactions t = c0 ++ [⟨.confirmLoginSession, some false⟩, ⟨.showLoginScreen req, true⟩] ∧ o = .ok false) ∨
        Ends lib (r.formValue b!"redirect_uri") (r.formValue b!"state") t o
          (c0 ++ [⟨.confirmLoginSession, some false⟩, ⟨.showLoginScreen req, false⟩])
          (.error req.responseMode b!"server_error" [])) := by
  have row : ∀ {c e}, LoginShown req c (.inr e) → Handled policy lib r (c0 ++ c) (.inr e) :=
    fun h => ready_row hr (.inl ⟨_, rfl, .inr ⟨hp, h⟩⟩)
  obtain ⟨b, s', h'⟩ := row_next h (row .shown) ht
  refine ⟨b, s', h', ?_⟩
  rintro rfl
  have row' : ∀ {c e}, LoginShown req (⟨.confirmLoginSession, some false⟩ :: c) (.inr e) →
      Handled policy lib r ((c0 ++ [⟨.confirmLoginSession, some false⟩]) ++ c) (.inr e) := by
    intro c e h
    have := row h
    simpa using this
  obtain ⟨b, s'', h''⟩ := row_next h (row' .shown) ⟨s', by rw [h']; simp⟩
  cases b with
  | true => exact .inl (follows h (row .shown) ⟨s'', by rw [h'']; simp⟩ (by simp))
  | false => exact .inr <| follows h (row .notShown) ⟨s'', by rw [h'']; simp⟩ (by simp)

/-- C73: a valid request of a logged-in user, fresh enough for `prompt` and `max_age`, whose consent cannot be left
out, leads to the consent screen for exactly this client and request, and the endpoint returns true. -/
theorem C73_consent_screen (h : Runs (handleRequest policy lib r) t o) (hr : Ready policy r clnt req c0)
    (hp : req.prompt ≠ b!"none") (h1 : LoginShown req c1 (.inl ())) (h2 : Reauthenticated req c2 (.inl ()))
    (h3 : YoungEnough req c3 (.inl ())) (h4 : ConsentOmitted policy lib clnt req c4 (.inl ()))
    (ht : c0 ++ (c1 ++ (c2 ++ (c3 ++ c4))) <+: interactions t) :
    (interactions t = (c0 ++ (c1 ++ (c2 ++ (c3 ++ c4)))) ++ [⟨.showConsentScreen clnt req, true⟩] ∧ o = .ok true) ∨
      Ends lib (r.formValue b!"redirect_uri") (r.formValue b!"state") t o
        ((c0 ++ (c1 ++ (c2 ++ (c3 ++ c4)))) ++ [⟨.showConsentScreen clnt req, false⟩])
        (.error req.responseMode b!"server_error" []) := by
  have row : ∀ {c e}, ConsentShown clnt req c (.inr e) →
      Handled policy lib r ((c0 ++ (c1 ++ (c2 ++ (c3 ++ c4)))) ++ c) (.inr e) := by
    intro c e h
    have := ready_row (c1 := c1 ++ (c2 ++ (c3 ++ (c4 ++ c)))) hr (lib := lib) (e := e)
      (.inr ⟨c1, _, (), rfl, .inr ⟨hp, h1⟩, .inr ⟨c2, _, (), rfl, h2, .inr ⟨c3, _, (), rfl, h3, .inr ⟨c4, c, (), rfl, h4, h⟩⟩⟩⟩)
    simpa using this
  obtain ⟨b, s', h'⟩ := row_next h (row .shown) ht
  cases b with
  | true => exact .inl (follows h (row .shown) ⟨s', by rw [h']; simp⟩ (by simp))
  | false => exact .inr <| follows h (row .notShown) ⟨s', by rw [h']; simp⟩ (by simp)

/-- C73: a valid request whose consent is left out is answered at once with what it asked for. -/
theorem C73_issue (h : Runs (handleRequest policy lib r) t o) (hr : Ready policy r clnt req c0)
    (hp : req.prompt ≠ b!"none") (h1 : LoginShown req c1 (.inl ())) (h2 : Reauthenticated req c2 (.inl ()))
    (h3 : YoungEnough req c3 (.inl ())) (ho : clnt.noConsentPromptPolicy = .omitConsentIfCan)
    (hq : ¬ HasWord req.prompt b!"consent") {info : AuthInfo} (h4 : EarlierConsent policy req c4 (.inl (some info)))
    (h5 : Issue policy lib (some info) req c (.inr e))
    (ht : c0 ++ (c1 ++ (c2 ++ (c3 ++ (c4 ++ c)))) <+: interactions t) :
    ∃ e', e'.Alike e ∧ Ends lib (r.formValue b!"redirect_uri") (r.formValue b!"state") t o
      (c0 ++ (c1 ++ (c2 ++ (c3 ++ (c4 ++ c))))) e' := by
  have row := ready_row (c1 := c1 ++ (c2 ++ (c3 ++ (c4 ++ c)))) hr (lib := lib) (e := e)
    (.inr ⟨c1, _, (), rfl, .inr ⟨hp, h1⟩, .inr ⟨c2, _, (), rfl, h2, .inr ⟨c3, _, (), rfl, h3,
      .inl ⟨_, rfl, .inr ⟨⟨ho, hq⟩, .inr ⟨c4, c, some info, rfl, h4, _, rfl, h5⟩⟩⟩⟩⟩⟩)
  obtain ⟨e', h6, _, h7⟩ := row_followed h row ht
  exact ⟨e', h6, h7⟩

/-- The hypotheses are met: a logged-in user who comes from the login screen, with and without the consent screen. -/
example : ∃ req, Ready .default (promptGet b!"login" []) Sample.client req (readyCalls Sample.client) ∧
    req.prompt ≠ b!"none" ∧ LoginShown req [⟨.confirmLoginSession, some true⟩] (.inl ()) ∧
    Reauthenticated req [⟨.requestIsFromLogin, some true⟩] (.inl ()) ∧
    YoungEnough req [⟨.getAuthTime, some 800⟩] (.inl ()) ∧
    ConsentOmitted .default Sample.lib Sample.client req [⟨.getLoginUserId, some 5⟩,
        ⟨.findAuthInfoByUserIdAndClientId 5 req.clientId, (none, some .failed)⟩] (.inl ()) ∧
    EarlierConsent .default req [⟨.getLoginUserId, some 5⟩, ⟨.findAuthInfoByUserIdAndClientId 5 req.clientId,
      (some { Sample.info with scope := b!"openid" }, none)⟩, ⟨.now, 1000⟩] (.inl (some { Sample.info with scope := b!"openid" })) ∧
    ∃ c m p, Issue .default Sample.lib (some { Sample.info with scope := b!"openid" }) req c (.inr (.success m p)) := by
  obtain ⟨h, hp⟩ := sample_ready (clnt := Sample.client) (p := b!"login") (more := []) (.inr (.inr rfl)) (.inl rfl)
    (by decide +kernel) (by decide +kernel) (by decide +kernel)
  have hl : HasWord (readyReq b!"login" []).prompt b!"login" := by rw [hp]; exact hasWord_iff.2 (by decide +kernel)
  have hc : ¬ HasWord (readyReq b!"login" []).prompt b!"consent" := by
    rw [hp]; exact fun h => absurd (hasWord_iff.1 h) (by decide +kernel)
  refine ⟨_, h, by rw [hp]; decide +kernel, .loggedIn, .done hl, .notAsked (by show ¬ (0 : Int64) < 0; decide +kernel), ?_, ?_, ?_⟩
  · refine .inr ⟨⟨rfl, hc⟩, .inr ⟨_, [], none, ?_, .notFound (uid := 5) (i := none) (err := .failed) (by simp) (by simp), rfl, rfl⟩⟩
    simp
  · refine .covered ⟨rfl, [b!"openid"], [b!"openid"], fields_iff.2 (by decide +kernel), fields_iff.2 ?_, .refl _⟩ (by decide +kernel)
    show split 32 b!"openid" = _
    decide +kernel
  · exact ⟨_, _, _, .inr ⟨_, [], _, rfl, CodeMade.made (code := b!"code") (authTime := 800), rfl, rfl⟩⟩

/-! ## C74 -/

/-- C74: every run of `CompleteRequest` first asks the application for the request to complete, and then follows a row
of its table. -/
theorem C74_table (h : Runs (completeRequest policy lib r) t o) :
    ∃ ans t', t = ⟨.continue_, ans⟩ :: t' ∧
      match ans with
      | none => interactions t' = [] ∧ o = .ok false
      | some none => t' = [] ∧ o = .panic
      | some (some req) => ∃ c e, Completed policy lib req c (.inr e) ∧ Ends lib req.redirectURI req.state t' o c e :=
  completeRequest_table h

/-- C74: the table of `CompleteRequest` is unambiguous. -/
theorem C74_unambiguous (h : Runs (completeRequest policy lib r) (⟨.continue_, some (some req)⟩ :: t) o)
    (hc : Completed policy lib req c (.inr e)) (hf : ¬ Fork (interactions t) c) :
    ∃ e', e'.Alike e ∧ Completed policy lib req c (.inr e') ∧ Ends lib req.redirectURI req.state t o c e' := by
  obtain ⟨ans, t', h0, h1⟩ := completeRequest_table h
  cases h0
  obtain ⟨c', e', h1, h2⟩ := h1
  rcases joint_completed c' c _ _ h1 hc with ⟨rfl, h3⟩ | h3
  · exact ⟨e', h3, h1, h2⟩
  · exact absurd (ends_fork h2 h3) hf

/-- C74: every row of the table of `CompleteRequest` occurs. -/
theorem C74_realised (hc : Completed policy lib req c (.inr e)) :
    ∃ t o e', Runs (completeRequest policy lib r) (⟨.continue_, some (some req)⟩ :: t) o ∧ e'.Alike e ∧
      Ends lib req.redirectURI req.state t o c e' := by
  obtain ⟨t, o, h, hf⟩ := run_following (completeRequest policy lib r) (⟨.continue_, some (some req)⟩ :: c)
  obtain ⟨ans, t', rfl, -⟩ := completeRequest_table h
  rw [interactions_cons rfl] at hf
  have ha : ans = some (some req) := Classical.byContradiction fun hn => hf (.inl ⟨rfl, by simpa using hn⟩)
  subst ha
  obtain ⟨e', h1, _, h2⟩ := C74_unambiguous h hc (fun h' => hf (.inr ⟨rfl, h'⟩))
  exact ⟨t', o, e', h, h1, h2⟩

theorem issue_error {info : Option AuthInfo} {mode : GoStr} (h : Issue policy lib info req c (.inr (.error mode code desc))) :
    mode = req.responseMode ∧ code = b!"server_error" ∧ desc = [] := by
  unfold Issue at h
  cases hf : req.flow with
  | none => rw [hf] at h; simp [Stage.ends] at h
  | some f =>
    rw [hf] at h
    dsimp only at h
    cases hty : f.type <;> rw [hty] at h <;> dsimp only at h
    · rcases h with ⟨e, h0, h⟩ | ⟨_, _, _, _, _, h⟩
      · cases h0; cases h <;> simp
      · simp [Stage.ends] at h
    · rcases h with ⟨e, h0, h⟩ | ⟨_, _, _, _, _, h⟩
      · cases h0; cases h; simp
      rcases h with ⟨e, h0, h⟩ | ⟨_, _, _, _, _, h⟩
      · cases h0; cases h; simp
      rcases h with ⟨e, h0, h⟩ | ⟨_, _, _, _, _, h⟩
      · cases h0; cases h; simp
      rcases h with ⟨e, h0, h⟩ | ⟨_, _, _, _, _, h⟩
      · cases h0; cases h; simp
      · simp [Stage.ends] at h
    · rcases h with ⟨e, h0, h⟩ | ⟨_, _, _, _, _, h⟩
      · cases h0; cases h <;> simp
      rcases h with ⟨e, h0, h⟩ | ⟨_, _, _, _, _, h⟩
      · cases h0; cases h; simp
      rcases h with ⟨e, h0, h⟩ | ⟨_, _, _, _, _, h⟩
      · cases h0; cases h; simp
      rcases h with ⟨e, h0, h⟩ | ⟨_, _, _, _, _, h⟩
      · cases h0; cases h; simp
      · simp [Stage.ends] at h
    · simp [Stage.ends] at h

theorem issue_no_write {info : Option AuthInfo} {x} (h : Issue policy lib info req c x) : ∀ e ∈ c, ∀ resp, e.q ≠ .write resp := by
  unfold Issue at h
  cases hf : req.flow with
  | none => rw [hf] at h; obtain ⟨rfl, -⟩ := h; simp
  | some f =>
    rw [hf] at h
    dsimp only at h
    have code : ∀ {info c x}, CodeMade policy info req c x → ∀ e ∈ c, ∀ resp, e.q ≠ .write resp := by
      intro info c x h; cases h <;> simp
    have clnt : ∀ {c x}, ClientFound req c x → ∀ e ∈ c, ∀ resp, e.q ≠ .write resp := by
      intro c x h; cases h <;> simp
    have tok : ∀ {info c x}, TokenMade info req f c x → ∀ e ∈ c, ∀ resp, e.q ≠ .write resp := by
      intro info c x h; cases h <;> simp
    have at' : ∀ {c x}, AuthTimeKnown req c x → ∀ e ∈ c, ∀ resp, e.q ≠ .write resp := by
      intro c x h; cases h <;> simp
    have idt : ∀ {a info b d g c x}, IdTokenMade policy lib a info req f b d g c x → ∀ e ∈ c, ∀ resp, e.q ≠ .write resp := by
      intro a info b d g c x h; cases h <;> simp
    have ends : ∀ {e : Spec.Ending} {c x}, Stage.ends (α := Empty) e c x → ∀ e ∈ c, ∀ resp, e.q ≠ .write resp := by
      rintro e c x ⟨rfl, -⟩; simp
    have both : ∀ {a b : List Event}, (∀ e ∈ a, ∀ resp, e.q ≠ .write resp) → (∀ e ∈ b, ∀ resp, e.q ≠ .write resp) →
        ∀ e ∈ a ++ b, ∀ resp, e.q ≠ .write resp := by
      intro a b h1 h2 e he
      rcases List.mem_append.1 he with h | h
      · exact h1 e h
      · exact h2 e h
    cases hty : f.type <;> rw [hty] at h <;> dsimp only at h
    · rcases h with ⟨e, h0, h⟩ | ⟨_, _, _, rfl, h', h⟩
      · exact code h
      · exact both (code h') (ends h)
    · rcases h with ⟨e, h0, h⟩ | ⟨_, _, _, rfl, h', h⟩
      · exact clnt h
      refine both (clnt h') ?_
      rcases h with ⟨e, h0, h⟩ | ⟨_, _, _, rfl, h', h⟩
      · exact tok h
      refine both (tok h') ?_
      rcases h with ⟨e, h0, h⟩ | ⟨_, _, _, rfl, h', h⟩
      · exact at' h
      refine both (at' h') ?_
      rcases h with ⟨e, h0, h⟩ | ⟨_, _, _, rfl, h', h⟩
      · exact idt h
      · exact both (idt h') (ends h)
    · rcases h with ⟨e, h0, h⟩ | ⟨_, _, _, rfl, h', h⟩
      · exact code h
      refine both (code h') ?_
      rcases h with ⟨e, h0, h⟩ | ⟨_, _, _, rfl, h', h⟩
      · exact clnt h
      refine both (clnt h') ?_
      rcases h with ⟨e, h0, h⟩ | ⟨_, _, _, rfl, h', h⟩
      · exact tok h
      refine both (tok h') ?_
      rcases h with ⟨e, h0, h⟩ | ⟨_, _, _, rfl, h', h⟩
      · exact idt h
      · exact both (idt h') (ends h)
    · exact ends h

theorem completed_no_write {x} (h : Completed policy lib req c x) : ∀ e ∈ c, ∀ resp, e.q ≠ .write resp := by
  rcases h with ⟨e, h0, h⟩ | ⟨_, _, _, rfl, h', h⟩
  · cases h <;> simp
  · intro e he
    rcases List.mem_append.1 he with h1 | h1
    · cases h'; simp at h1; rcases h1 with rfl | rfl <;> simp
    · exact issue_no_write h e h1

/-- C74: whatever `CompleteRequest` sends when it returns false is `server_error` without description, to the
redirect URI of the request, with its state, in its response mode. -/
theorem C74_only_server_error {resp : HttpResp} (h : Runs (completeRequest policy lib r) (t ++ [wrote resp]) (.ok false)) :
    ∃ req, ⟨.continue_, some (some req)⟩ ∈ t ∧
      Delivers resp req.redirectURI (errorResponse b!"server_error" [] req.state) (channel req.responseMode) := by
  obtain ⟨ans, t', h0, h1⟩ := completeRequest_table h
  cases t with
  | nil => cases h0
  | cons e t =>
    simp only [List.cons_append, List.cons.injEq] at h0
    obtain ⟨rfl, rfl⟩ := h0
    have hi : interactions (t ++ [wrote resp]) = interactions t ++ [wrote resp] := by
      rw [interactions_append]; rfl
    rcases ans with _ | _ | req <;> dsimp only at h1
    · rw [hi] at h1; simp at h1
    · simp at h1
    · refine ⟨req, ?_⟩
      obtain ⟨c, e, h1, h2⟩ := h1
      cases e with
      | stop b => 
        exfalso
        have h3 := h2.1
        rw [hi] at h3
        exact completed_no_write h1 (wrote resp) (by rw [← h3]; simp) resp rfl
      | crash => cases h2.2
      | success mode params => rcases h2 with ⟨_, _, h2, _⟩ | ⟨_, h2, _⟩ <;> cases h2
      | error mode code desc =>
        rcases h2 with ⟨resp', h2, -, h3⟩ | ⟨_, h2, _⟩
        · rw [hi] at h2
          have := List.append_inj_right' h2 rfl
          cases this
          rcases h1 with ⟨e, h0, h⟩ | ⟨_, _, _, _, _, h⟩
          · cases h0
            cases h <;> exact ⟨by simp, h3⟩
          · obtain ⟨rfl, rfl, rfl⟩ := issue_error h
            exact ⟨by simp, h3⟩
        · cases h2

/-- A run in a world that returned false and ended with a response. -/
theorem world_refused {w : Sample.World} {p : Prog Bool}
    (h1 : (match (w.run p).2.1 with | .ok false => true | _ => false) = true) (h2 : (lastWrite (w.run p).1).isSome = true) :
    ∃ pre resp, Runs p (pre ++ [wrote resp]) (.ok false) := by
  have hr := w.runs p
  cases hl : lastWrite (w.run p).1 with
  | none => rw [hl] at h2; cases h2
  | some resp =>
    obtain ⟨pre, hp⟩ := lastWrite_eq hl
    rw [hp] at hr
    refine ⟨pre, resp, ?_⟩
    cases ho : (w.run p).2.1 with
    | panic => rw [ho] at h1; cases h1
    | ok b => cases b with
      | true => rw [ho] at h1; cases h1
      | false => rw [ho] at hr; exact hr

/-- A completed hybrid request, one that cannot be recorded, and a response of `CompleteRequest` when the code cannot be
stored. -/
example : (∃ c e, Completed .default Sample.lib (continuedReq ⟨.hybrid, true, true⟩ b!"fragment") c (.inr e)) ∧
    ∃ t resp, Runs (completeRequest .default Sample.lib anyReq) (t ++ [wrote resp]) (.ok false) := by
  refine ⟨⟨_, _, .inl ⟨_, rfl, .notRecorded (uid := 5) (i := none) (err := .failed)⟩⟩, ?_⟩
  obtain ⟨pre, resp, h⟩ := world_refused (w := { hybridWorld with storeSession := some .serverError })
    (p := completeRequest .default Sample.lib anyReq) (by decide +kernel) (by decide +kernel)
  exact ⟨pre, resp, h⟩

end Goidc.Props
