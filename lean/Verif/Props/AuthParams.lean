import Verif.Props.AuthPrompt
import Verif.Lemmas.MaxAge

/-! # C38, C39, C64: scope, nonce and `max_age` of accepted authorization requests -/

namespace Goidc.Props

open Spec AuthzEndpoint

variable {policy : Policy} {lib : Lib} {r : Req} {t pre : List Event} {resp : HttpResp} {b : Bool} {req : Request}

/-- What a request handed to a screen was built from. -/
theorem handed_built (h : Steps (handleRequest policy lib r) t) (hh : Handed t req) :
    ∃ clnt f, FoundClient r clnt t ∧ Built policy r clnt f req := by
  have key : ∀ q x, ⟨q, x⟩ ∈ t → (q = .showLoginScreen req ∨ ∃ c, q = .showConsentScreen c req) →
      ∃ clnt f, FoundClient r clnt t ∧ Built policy r clnt f req := by
    intro q x he hq
    obtain ⟨pre, post, rfl⟩ := List.append_of_mem he
    obtain ⟨clnt, f, req', hs⟩ := handleRequest_shown h (by rcases hq with rfl | ⟨c, rfl⟩ <;> rfl)
    have : req' = req := by
      rcases hs.which with h1 | ⟨h1, _⟩ <;> rcases hq with h2 | ⟨c, h2⟩ <;> rw [h1] at h2 <;> cases h2 <;> rfl
    subst this
    exact ⟨clnt, f, foundClient_mono hs.found (fun e he => by simp [he]), hs.built⟩
  rcases hh with ⟨x, he⟩ | ⟨c, x, he⟩
  · exact key _ x he (.inl rfl)
  · exact key _ x he (.inr ⟨c, rfl⟩)

/-! ## C38 -/

/-- C38: the request handed to the login and consent screens, and through `Continue` to
`CompleteRequest`, carries the effective scope of the request. -/
theorem C38_handed_scope (h : Steps (handleRequest policy lib r) t) (hh : Handed t req) :
    ∃ f, Asks (r.formValue b!"response_type") f ∧ req.flow = some f ∧
      EffectiveScope f.type (r.formValue b!"prompt") (r.formValue b!"scope") req.scope := by
  obtain ⟨clnt, f, _, hb⟩ := handed_built h hh
  exact ⟨f, asks_iff.2 hb.judged, hb.flow, built_scope hb⟩

/-- An effective scope with `offline_access`. -/
theorem effective_offline {ft : FlowType} {prompt requested effective : GoStr}
    (h : EffectiveScope ft prompt requested effective) {ws ps : List GoStr} (hw : Words effective ws)
    (hp : Words prompt ps) (ho : b!"offline_access" ∈ ws) : ft ≠ .implicit ∧ b!"consent" ∈ ps := by
  have h' := h _ ps (words_split requested) hp
  split at h'
  · rename_i hc
    dsimp only at h'
    rcases h' with ⟨_, h1⟩ | ⟨_, h1⟩
    · rw [words_unique hw h1] at ho
      simp at ho
    · subst h1
      rw [words_unique hw (words_split [])] at ho
      exact absurd ho (by decide)
  · rename_i hc
    subst h'
    rw [words_unique hw (words_split _)] at ho
    refine ⟨fun hi => hc ⟨ho, .inl hi⟩, Decidable.byContradiction fun hn => hc ⟨ho, .inr hn⟩⟩

/-- C38: a request handed to a screen asks for `offline_access` only in a non-implicit flow with
`consent` among the prompts. -/
theorem C38_offline_needs_consent (h : Steps (handleRequest policy lib r) t) (hh : Handed t req) {ws ps : List GoStr}
    (hw : Words req.scope ws) (hp : Words (r.formValue b!"prompt") ps) (ho : b!"offline_access" ∈ ws) :
    b!"consent" ∈ ps ∧ ∃ f, req.flow = some f ∧ f.type ≠ .implicit := by
  obtain ⟨f, _, hf, he⟩ := C38_handed_scope h hh
  obtain ⟨h1, h2⟩ := effective_offline he hw hp ho
  exact ⟨h2, f, hf, h1⟩

/-- Only a scope parameter is called `scope`. -/
theorem completeParts_scope {info : Option AuthInfo} {f : Flow} {ps : Params} {w : List Event} {s : GoStr}
    (h : CompleteParts policy lib info req f w ps) (hm : (b!"scope", s) ∈ ps) : s = req.scope := by
  have hst : (b!"scope", s) ∉ stateParam req := by unfold stateParam; split <;> simp
  have hsc : (b!"scope", s) ∈ scopeParam req → s = req.scope := by
    unfold scopeParam; split <;> simp
  unfold CompleteParts at h
  have htok : ∀ {key t a p}, key ≠ b!"scope" → TokenPart info f key t a p → (b!"scope", s) ∉ p := by
    intro key t a p hk hp
    rcases hp with ⟨_, tk, _, _, rfl⟩ | ⟨_, _, _, rfl⟩
    · simp [Ne.symm hk]
    · simp
  have hid : ∀ {clnt at_ a c t p}, IdPart policy lib clnt info f req at_ a c t p → (b!"scope", s) ∉ p := by
    intro clnt at_ a c t p hp
    rcases hp with ⟨_, _, _, _, _, idt, _, _, _, rfl, _⟩ | ⟨_, _, rfl⟩ <;> simp
  split at h
  · obtain ⟨_, _, _, rfl⟩ := h
    simp at hm
    exact absurd hm hst
  · obtain ⟨_, _, _, _, _, _, _, h1, h2, _, rfl⟩ := h
    simp only [List.mem_append] at hm
    rcases hm with ((hm | hm) | hm) | hm
    · exact absurd hm hst
    · exact hsc hm
    · exact absurd hm (htok (by decide) h1)
    · exact absurd hm (hid h2)
  · obtain ⟨_, _, _, _, _, _, _, _, h1, h2, _, rfl⟩ := h
    rcases List.mem_cons.1 hm with hm | hm
    · simp at hm
    simp only [List.mem_append] at hm
    rcases hm with ((hm | hm) | hm) | hm
    · exact absurd hm hst
    · exact hsc hm
    · exact absurd hm (htok (by decide) h1)
    · exact absurd hm (hid h2)
  · exact h.elim

/-- C38: a success response reports the effective scope, and whatever was stored or issued (session,
access token) was stored or issued for an authorization with exactly its tokens. -/
theorem C38_completed_scope (h : Runs (handleRequest policy lib r) (pre ++ [wrote resp]) (.ok true)) :
    ∃ f scope info params, Asks (r.formValue b!"response_type") f ∧
      EffectiveScope f.type (r.formValue b!"prompt") (r.formValue b!"scope") scope ∧
      (∀ ws wt, Words info.scope ws → Words scope wt → ws.Perm wt) ∧
      (∀ e ∈ pre, (∀ i s, e.q = .createAuthSession i s → i = some info) ∧
        ∀ i b, e.q = .createOAuthToken i b → i = some info) ∧
      (∃ ch, Delivers resp (r.formValue b!"redirect_uri") params ch) ∧ ∀ s, (b!"scope", s) ∈ params → s = scope := by
  obtain ⟨c, f, req, info, before, w, a, ps, rfl, hs⟩ := handleRequest_true h
  refine ⟨f, req.scope, info, ps, asks_iff.2 hs.built.judged, built_scope hs.built, (covered_consented hs.covered).choose_spec.choose_spec.2.2.2.1,
    ?_, ⟨_, hs.delivers⟩, fun s hm => completeParts_scope hs.parts hm⟩
  have hw : ∀ e ∈ w, (∀ i s, e.q = .createAuthSession i s → i = some info) ∧
        ∀ i b, e.q = .createOAuthToken i b → i = some info := by
    have hp := hs.parts
    have htok : ∀ {key t a p}, TokenPart (some info) f key t a p → ∀ e ∈ t,
        (∀ i s, e.q = .createAuthSession i s → i = some info) ∧ ∀ i b, e.q = .createOAuthToken i b → i = some info := by
      intro key t a p hp e he
      rcases hp with ⟨_, tk, rfl, _, rfl⟩ | ⟨_, rfl, _, rfl⟩
      · obtain rfl : e = _ := by simpa using he
        simp
      · simp at he
    have hid : ∀ {clnt at_ a c t p}, IdPart policy lib clnt (some info) f req at_ a c t p → ∀ e ∈ t,
        (∀ i s, e.q = .createAuthSession i s → i = some info) ∧ ∀ i b, e.q = .createOAuthToken i b → i = some info := by
      intro clnt at_ a c t p hp e he
      rcases hp with ⟨_, _, _, _, _, idt, _, _, rfl, rfl, _⟩ | ⟨_, rfl, rfl⟩
      · simp at he
        rcases he with rfl | rfl <;> simp
      · simp at he
    unfold CompleteParts at hp
    split at hp
    · obtain ⟨_, _, rfl, _⟩ := hp
      intro e he
      simp at he
      rcases he with rfl | rfl | rfl <;> simp
    · obtain ⟨_, _, _, _, _, _, _, h1, h2, rfl, _⟩ := hp
      intro e he
      simp only [List.mem_cons, List.mem_append] at he
      rcases he with rfl | he | rfl | he
      · simp
      · exact htok h1 e he
      · simp
      · exact hid h2 e he
    · obtain ⟨_, _, _, _, _, _, _, _, h1, h2, rfl, _⟩ := hp
      intro e he
      simp only [List.mem_cons, List.mem_append] at he
      rcases he with rfl | rfl | rfl | rfl | he | he
      · simp
      · simp
      · simp
      · simp
      · exact htok h1 e he
      · exact hid h2 e he
    · exact hp.elim
  intro e he
  rcases List.mem_append.1 he with he | he
  · rcases List.mem_append.1 he with he | he
    · have := hs.inert e he
      constructor
      · intro i s hq; rw [hq] at this; cases this
      · intro i s hq; rw [hq] at this; cases this
    · exact hw e he
  · obtain ⟨m, l, rfl⟩ := hs.ranging e he
    simp

/-- The request shown on the consent screen keeps `offline_access` with `prompt=consent` and loses it
with `prompt=select_account`. -/
example :
    (consentedWorld.run (handleRequest .default Sample.lib (authGet [(b!"response_type", b!"code"),
      (b!"scope", b!"openid offline_access email"), (b!"prompt", b!"consent")]))).1.any
        (fun e => match e.q with | .showConsentScreen _ q => q.scope == b!"openid offline_access email" | _ => false) = true ∧
    (consentedWorld.run (handleRequest .default Sample.lib (authGet [(b!"response_type", b!"code"),
      (b!"scope", b!"openid offline_access email"), (b!"prompt", b!"select_account")]))).1.any
        (fun e => match e.q with | .showConsentScreen _ q => q.scope == b!"openid email" | _ => false) = true := by
  decide +kernel

/-! ## C39 -/

/-- What C39 says of a validated request. -/
theorem built_idToken {clnt : Client} {f : Flow} (hb : Built policy r clnt f req) :
    (∀ rs ws, Words (r.formValue b!"response_type") rs → Words req.scope ws → b!"id_token" ∈ rs →
      b!"openid" ∈ ws ∧ req.nonce ≠ []) ∧
    (0 ≤ policy.maxNonceLength.toInt → (req.nonce.length : Int) ≤ policy.maxNonceLength.toInt) ∧
    (0 ≤ policy.maxCodeVerifierLength.toInt → (req.codeVerifier.length : Int) ≤ policy.maxCodeVerifierLength.toInt) := by
  refine ⟨fun rs ws hr hw hi => ?_, fun h0 => ?_, fun h0 => ?_⟩
  · obtain ⟨_, _, _, hc, hid, _⟩ := C47_accepted_tokens hr hb.judged
    have hreq := hid.1 hi
    refine ⟨(C46_include hw).1 (hb.scopeOpenID hreq), hb.nonceRequired ?_ hreq⟩
    intro hty
    obtain ⟨e, he, hp, rfl⟩ := (C47_judge_iff hr f).1 hb.judged
    have key : ∀ e ∈ responseTypes, e.2.requireIdToken = true → e.2.type ≠ .authorizationCode := by decide
    exact key e he hreq hty
  · rcases hb.nonceLength with h | h
    · rw [h]; exact h0
    · exact h
  · rcases hb.verifierLength with h | h
    · rw [h]; exact h0
    · exact h

/-- C39, for every request handed to the login or consent screen. -/
theorem C39_handed (h : Steps (handleRequest policy lib r) t) (hh : Handed t req) :
    req.nonce = r.formValue b!"nonce" ∧ req.codeVerifier = r.formValue b!"code_verifier" ∧
    (∀ rs ws, Words (r.formValue b!"response_type") rs → Words req.scope ws → b!"id_token" ∈ rs →
      b!"openid" ∈ ws ∧ req.nonce ≠ []) ∧
    (0 ≤ policy.maxNonceLength.toInt → (req.nonce.length : Int) ≤ policy.maxNonceLength.toInt) ∧
    (0 ≤ policy.maxCodeVerifierLength.toInt → (req.codeVerifier.length : Int) ≤ policy.maxCodeVerifierLength.toInt) := by
  obtain ⟨clnt, f, _, hb⟩ := handed_built h hh
  exact ⟨hb.nonce, hb.verifier, built_idToken hb⟩

/-- C39, for every success response. -/
theorem C39_success (h : Runs (handleRequest policy lib r) (pre ++ [wrote resp]) (.ok true)) :
    ∃ f scope, Asks (r.formValue b!"response_type") f ∧
    EffectiveScope f.type (r.formValue b!"prompt") (r.formValue b!"scope") scope ∧
    (∀ rs ws, Words (r.formValue b!"response_type") rs → Words scope ws → b!"id_token" ∈ rs →
      b!"openid" ∈ ws ∧ r.formValue b!"nonce" ≠ []) ∧
    (0 ≤ policy.maxNonceLength.toInt → ((r.formValue b!"nonce").length : Int) ≤ policy.maxNonceLength.toInt) ∧
    (0 ≤ policy.maxCodeVerifierLength.toInt →
      ((r.formValue b!"code_verifier").length : Int) ≤ policy.maxCodeVerifierLength.toInt) := by
  obtain ⟨c, f, req, info, before, w, a, ps, rfl, hs⟩ := handleRequest_true h
  refine ⟨f, req.scope, asks_iff.2 hs.built.judged, built_scope hs.built, ?_⟩
  rw [← hs.built.nonce, ← hs.built.verifier]
  exact built_idToken hs.built

/-- A hybrid request with nonce succeeds, without nonce or `openid` it is refused. -/
example : returnedTrue (consentedWorld.run (handleRequest .default Sample.lib hybridGet)) = true ∧
    returnedTrue (consentedWorld.run (handleRequest .default Sample.lib
      (authGet [(b!"response_type", b!"id_token"), (b!"scope", b!"openid")]))) = false ∧
    returnedTrue (consentedWorld.run (handleRequest .default Sample.lib
      (authGet [(b!"response_type", b!"id_token"), (b!"scope", b!"email"), (b!"nonce", b!"n")]))) = false := by
  decide +kernel

/-! ## C64 -/

/-- C64: the `max_age` of a request handed to the application. -/
theorem C64_exact (h : Steps (handleRequest policy lib r) t) (hh : Handed t req) :
    (r.formValue b!"max_age" = [] ∧ req.maxAge.toInt = 0) ∨
    (SignedDecimal (r.formValue b!"max_age") req.maxAge.toInt ∧
      policy.minMaxAge.toInt ≤ req.maxAge.toInt ∧ req.maxAge.toInt ≤ policy.maxMaxAge.toInt) := by
  obtain ⟨clnt, f, _, hb⟩ := handed_built h hh
  rcases hb.maxAge with ⟨h1, h2⟩ | ⟨h1, _, h2, h3⟩
  · exact .inl ⟨h1, by rw [h2]; rfl⟩
  · rw [Int64.lt_iff_toInt_lt] at h2 h3
    exact .inr ⟨(atoi_iff _ _).1 h1, by omega, by omega⟩

/-- C64: a `max_age` that is not an integer within the policy's bounds.  The request is refused with
`invalid_request`, unless it already was on the error screen (unknown client or redirect URI), for
clients that may use the requested flow.  (The endpoint panics when the redirect URI does not parse or
the backend answers no client with an unknown kind of error.) -/
theorem C64_refused {o : Outcome Bool} (h : Runs (handleRequest policy lib r) t o)
    (hcu : ∀ clnt f, FoundClient r clnt t → Asks (r.formValue b!"response_type") f →
      clnt.canUseFlow f.type = true)
    (hne : r.formValue b!"max_age" ≠ [])
    (hbad : ∀ m, SignedDecimal (r.formValue b!"max_age") m → m < policy.minMaxAge.toInt ∨ policy.maxMaxAge.toInt < m) :
    (∃ pre n, t = pre ++ [⟨.showErrorScreen n, ()⟩] ∧ o = .ok false) ∨
    (∃ pre resp desc ch, t = pre ++ [wrote resp] ∧ o = .ok false ∧ NoWrite pre ∧
      Delivers resp (r.formValue b!"redirect_uri")
        (errorResponse b!"invalid_request" desc (r.formValue b!"state")) ch) ∨
    (o = .panic ∧ (lib.urlParseOk (r.formValue b!"redirect_uri") = false ∨
      ∃ n, ⟨.findClientById (r.formValue b!"client_id"), (none, some (.other n))⟩ ∈ t)) := by
  have hb : ∀ a, atoi (r.formValue b!"max_age") = some a → a < policy.minMaxAge ∨ policy.maxMaxAge < a := by
    intro a ha
    rw [Int64.lt_iff_toInt_lt, Int64.lt_iff_toInt_lt]
    exact hbad _ ((atoi_iff _ _).1 ha)
  rcases handleRequest_maxAge h (fun c f h1 h2 => hcu c f h1 (asks_iff.2 h2)) hne hb with (⟨t1, n, rfl, _, rfl⟩ | ⟨rfl, n, rfl⟩) |
    ⟨clnt, t1, t2, rfl, h1, mode, t3, t4, rfl, hi, hc⟩
  · exact .inl ⟨_, _, rfl, rfl⟩
  · exact .inr (.inr ⟨rfl, .inr ⟨n, by simp⟩⟩)
  · rcases hc with ⟨rfl, rfl, h2, _⟩ | ⟨rfl, typ, ht, desc, resp, hs, hd⟩
    · exact .inr (.inr ⟨rfl, .inl h2⟩)
    · obtain ⟨p, rfl, hp1, hp2⟩ := sentTrace_last hs
      simp at ht
      subst ht
      refine .inr (.inl ⟨t1 ++ t3 ++ p, resp, desc, _, by simp, rfl, ?_, hd⟩)
      exact noWrite_append.2 ⟨noWrite_append.2 ⟨inert_noWrite (identified_found h1).2.2, inert_noWrite hi⟩, hp1⟩

/-- `max_age=0x10` and `max_age=59` are refused, `+3600` is read as 3600. -/
example : ((consentedWorld.status (handleRequest .default Sample.lib (promptGet [] [(b!"max_age", b!"0x10")]))) = some 302 ∧
    returnedTrue (consentedWorld.run (handleRequest .default Sample.lib (promptGet [] [(b!"max_age", b!"0x10")]))) = false ∧
    returnedTrue (consentedWorld.run (handleRequest .default Sample.lib (promptGet [] [(b!"max_age", b!"59")]))) = false) ∧
    (({ consentedWorld with loggedIn := some false } : Sample.World).run
      (handleRequest .default Sample.lib (promptGet [] [(b!"max_age", b!"+3600")]))).1.any
        (fun e => match e.q with | .showLoginScreen q => q.maxAge == 3600 | _ => false) = true := by decide +kernel

end Goidc.Props
