import Verif.Props.Settings
import Verif.Props.AuthDecision
import Verif.Props.AuthComplete
import Verif.Props.AuthPrompt

/-! # C92, continued: what the default policy means -/

namespace Goidc.Props

open Spec TokenEndpoint AuthzEndpoint

variable {lib : Lib} {r : Req} {pre t c0 : List Event} {resp : HttpResp} {o : Outcome Bool} {clnt : Client} {f : Flow} {scope : GoStr}

/-- The response mode under the default policy: `form_post` if asked for; otherwise `fragment` if asked for or if the flow
is implicit or hybrid; otherwise `query`.  Anything else that is asked for is ignored. -/
def defaultChannel (f : Flow) (asked : GoStr) : GoStr :=
  if asked = b!"form_post" then b!"form_post"
  else if asked = b!"fragment" ∨ f.type = .implicit ∨ f.type = .hybrid then b!"fragment"
  else b!"query"

theorem modeUsed_default (f : Flow) (m : GoStr) : modeUsed .default f m = defaultChannel f m := by
  have hq : modeOfFlow .default f = if f.type = .implicit ∨ f.type = .hybrid then b!"fragment" else b!"query" := rfl
  have c1 : channel b!"query" = .query := by decide
  have c2 : channel b!"fragment" = .fragment := by decide
  have c3 : channel b!"form_post" = .form := by decide
  unfold modeUsed defaultChannel TooWeak
  rw [hq]
  have hr : Policy.default.requireSecurityLevelCheck = true := rfl
  by_cases hf : f.type = .implicit ∨ f.type = .hybrid
  · simp only [hf, if_true, hr, true_and, or_true, knownModes, c2]
    by_cases h1 : m = b!"form_post"
    · subst h1; rw [c3]; simp [strength]
    · by_cases h2 : m = b!"fragment"
      · subst h2; rw [c2]; simp
      · by_cases h3 : m = b!"query"
        · subst h3; rw [c1]; simp [strength]
        · simp [h1, h2, h3]
  · simp only [hf, if_false, hr, true_and, or_false, knownModes, c1]
    by_cases h1 : m = b!"form_post"
    · subst h1; rw [c3]; simp [strength]
    · by_cases h2 : m = b!"fragment"
      · subst h2; rw [c2]; simp [strength]
      · by_cases h3 : m = b!"query"
        · subst h3; rw [c1]; simp
        · simp [h1, h2, h3]

theorem defaultChannel_channel (f : Flow) (m : GoStr) : channel (defaultChannel f m) =
    if m = b!"form_post" then .form else if m = b!"fragment" ∨ f.type = .implicit ∨ f.type = .hybrid then .fragment else .query := by
  unfold defaultChannel
  split
  · decide
  · split <;> decide

/-- C92: under the default policy no request is refused for its response mode: once the client is identified, a request without
other faults (those behind the two about response modes) goes on to the next step, and its response mode is `defaultChannel`. -/
theorem C92_default_mode (h : Runs (handleRequest .default lib r) t o) (hi : Identification r c0 (.inl clnt))
    (hp : c0 <+: interactions t) (ha : Asks (r.formValue b!"response_type") f)
    (hs : EffectiveScope f.type (r.formValue b!"prompt") (r.formValue b!"scope") scope)
    (hf : ∀ x ∈ (faults .default clnt r f scope).drop 2, ¬ x.1) :
    ∃ ans rest, interactions t = c0 ++ ⟨.chooseLocale (r.formValue b!"ui_locales"), ans⟩ :: rest ∧
      ∀ locale, ans = some locale → ∃ req, Ready .default r clnt req
        (c0 ++ [⟨.chooseLocale (r.formValue b!"ui_locales"), some locale⟩]) ∧
        req.responseMode = defaultChannel f (r.formValue b!"response_mode") := by
  have hall : ∀ x ∈ faults .default clnt r f scope, ¬ x.1 := by
    intro x hx
    rw [← List.take_append_drop 2 (faults .default clnt r f scope)] at hx
    rcases List.mem_append.1 hx with hx | hx
    · have hno : Policy.default.ignoreInvalidResponseMode = true := rfl
      simp only [faults, List.take_succ_cons, List.take_zero, List.mem_cons, List.not_mem_nil, or_false] at hx
      rcases hx with rfl | rfl
      · rintro ⟨_, _, h⟩; rw [hno] at h; cases h
      · rintro ⟨_, _, h⟩; rw [hno] at h; cases h
    · exact hf x hx
  obtain ⟨ans, rest, h1, _, h2⟩ := C71_valid h hi hp ha hs hall
  refine ⟨ans, rest, h1, fun locale he => ?_⟩
  obtain ⟨ma, hr⟩ := h2 locale he
  exact ⟨_, hr, modeUsed_default f _⟩

/-! ## Where responses travel -/

/-- An ending with a response is one in this mode. -/
def EndsIn (m : GoStr) : Spec.Ending → Prop
  | .error mo _ _ => mo = m
  | .success mo _ => mo = m
  | _ => True

/-- A stage writes nothing itself, and the responses it ends with travel in this mode. -/
structure InMode (m : GoStr) {α : Type} (S : Stage α) : Prop where
  silent : ∀ c x, S c x → ∀ e ∈ c, ∀ q, e.q ≠ .write q
  mode : ∀ c e, S c (.inr e) → EndsIn m e

theorem inMode_andThen {m : GoStr} {α β : Type} {S : Stage α} {T : α → Stage β} (h1 : InMode m S) (h2 : ∀ x, InMode m (T x)) :
    InMode m (S.andThen T) := by
  constructor
  · rintro c x (⟨e', rfl, h⟩ | ⟨c1, c2, y, rfl, h, h'⟩)
    · exact h1.silent _ _ h
    · intro e he
      rcases List.mem_append.1 he with he | he
      · exact h1.silent _ _ h e he
      · exact (h2 y).silent _ _ h' e he
  · rintro c e (⟨e', he, h⟩ | ⟨c1, c2, x, rfl, _, h⟩)
    · cases he; exact h1.mode c e h
    · exact (h2 x).mode c2 e h

theorem inMode_ends {m : GoStr} {α : Type} {e : Spec.Ending} (h : EndsIn m e) : InMode m (Stage.ends e : Stage α) := by
  constructor
  · rintro c x ⟨rfl, _⟩ e he; cases he
  · rintro c e' ⟨_, he⟩
    cases he; exact h

theorem inMode_last {m : GoStr} {α : Type} {S : Stage Empty} (h : InMode m S) : InMode m (S.last : Stage α) := by
  constructor
  · rintro c x ⟨e', rfl, h'⟩; exact h.silent _ _ h'
  · rintro c e ⟨e', he, h'⟩
    cases he; exact h.mode c e h'

theorem inMode_skip {m : GoStr} : InMode m Stage.skip := by
  constructor
  · rintro c x ⟨rfl, _⟩ e he; cases he
  · rintro c e ⟨_, h⟩; cases h

section
variable {policy : Policy} {req : Request} {info : Option AuthInfo}

theorem inMode_issue : InMode req.responseMode (Issue policy lib info req) := by
  have h1 : InMode req.responseMode (CodeMade policy info req) :=
    ⟨fun c x h => by cases h <;> simp, fun c e h => by cases h <;> first | rfl | trivial⟩
  have h2 : InMode req.responseMode (ClientFound req) :=
    ⟨fun c x h => by cases h <;> simp, fun c e h => by cases h <;> first | rfl | trivial⟩
  have h3 : ∀ f, InMode req.responseMode (TokenMade info req f) := fun f =>
    ⟨fun c x h => by cases h <;> simp, fun c e h => by cases h <;> first | rfl | trivial⟩
  have h4 : InMode req.responseMode (AuthTimeKnown req) :=
    ⟨fun c x h => by cases h <;> simp, fun c e h => by cases h <;> first | rfl | trivial⟩
  have h5 : ∀ clnt f a tk code, InMode req.responseMode (IdTokenMade policy lib clnt info req f a tk code) := fun clnt f a tk code =>
    ⟨fun c x h => by cases h <;> simp, fun c e h => by cases h <;> first | rfl | trivial⟩
  unfold Issue
  split
  · exact inMode_ends trivial
  · split
    · exact inMode_andThen h1 fun _ => inMode_ends rfl
    · exact inMode_andThen h2 fun _ => inMode_andThen (h3 _) fun _ => inMode_andThen h4 fun _ => inMode_andThen (h5 _ _ _ _ _) fun _ =>
        inMode_ends rfl
    · exact inMode_andThen h1 fun _ => inMode_andThen h2 fun _ => inMode_andThen (h3 _) fun _ => inMode_andThen (h5 _ _ _ _ _) fun _ =>
        inMode_ends rfl
    · exact inMode_ends trivial

theorem inMode_earlier : InMode req.responseMode (EarlierConsent policy req) :=
  ⟨fun c x h => by cases h <;> simp, fun c e h => by cases h <;> first | rfl | trivial⟩

theorem inMode_decided : InMode req.responseMode (Decided policy lib clnt req) := by
  have hs : InMode req.responseMode (SessionNeeded req) :=
    ⟨fun c x h => by cases h <;> simp, fun c e h => by cases h <;> first | rfl | trivial⟩
  have hm : ∀ sub hint, InMode req.responseMode (MatchNeeded req sub hint) := fun sub hint =>
    ⟨fun c x h => by cases h <;> simp, fun c e h => by cases h <;> first | rfl | trivial⟩
  have hh : InMode req.responseMode (HintNeeded lib clnt req) :=
    ⟨fun c x h => by cases h <;> simp, fun c e h => by cases h <;> first | rfl | trivial⟩
  have hl : InMode req.responseMode (LoginShown req) :=
    ⟨fun c x h => by cases h <;> simp, fun c e h => by cases h <;> first | rfl | trivial⟩
  have hi : InMode req.responseMode (IssueOrRefuse policy lib req) := by
    refine inMode_andThen inMode_earlier fun x => ?_
    cases x with
    | none => exact inMode_ends rfl
    | some i => exact inMode_issue
  have hhint : InMode req.responseMode ((SessionNeeded req).andThen fun _ => (MatchNeeded req req.loginHint b!"login_hint").andThen fun _ =>
      ((IssueOrRefuse policy lib req).last : Stage Unit)) := inMode_andThen hs fun _ => inMode_andThen (hm _ _) fun _ => inMode_last hi
  have hsil : InMode req.responseMode (Spec.Silent policy lib clnt req) := by
    unfold Spec.Silent
    split
    · exact inMode_ends rfl
    · exact inMode_andThen hs fun _ => inMode_last hi
    · have he : InMode (α := Unit) req.responseMode (Stage.ends (.error req.responseMode b!"invalid_request"
        b!"in case you pass 'none' for 'prompt', 'login_hint' is required.")) := inMode_ends rfl
      constructor
      · rintro c x (⟨_, h⟩ | ⟨_, h⟩)
        · exact he.silent c x h
        · exact hhint.silent c x h
      · rintro c e (⟨_, h⟩ | ⟨_, h⟩)
        · exact he.mode c e h
        · exact hhint.mode c e h
    · exact inMode_andThen hh fun _ => inMode_andThen (hm _ _) fun _ => inMode_last hi
    · exact inMode_skip
  have hom : InMode req.responseMode ((EarlierConsent policy req).andThen (fun
      | some info => (Issue policy lib (some info) req).last
      | none => .skip)) := by
    refine inMode_andThen inMode_earlier fun x => ?_
    cases x with
    | none => exact inMode_skip
    | some i => exact inMode_last inMode_issue
  unfold Decided
  refine inMode_andThen ?_ fun _ => inMode_andThen ?_ fun _ => inMode_andThen ?_ fun _ => inMode_andThen ?_ fun _ => ?_
  · constructor
    · rintro c x (⟨_, h⟩ | ⟨_, h⟩)
      · exact hsil.silent c x h
      · exact hl.silent c x h
    · rintro c e (⟨_, h⟩ | ⟨_, h⟩)
      · exact hsil.mode c e h
      · exact hl.mode c e h
  · exact ⟨fun c x h => by cases h <;> simp, fun c e h => by cases h <;> first | rfl | trivial⟩
  · exact ⟨fun c x h => by cases h <;> simp, fun c e h => by cases h <;> first | rfl | trivial⟩
  · constructor
    · rintro c x (⟨_, h⟩ | ⟨_, h⟩)
      · exact (inMode_skip (m := [])).silent c x h
      · exact hom.silent c x h
    · rintro c e (⟨_, h⟩ | ⟨_, h⟩)
      · exact inMode_skip.mode c e h
      · exact hom.mode c e h
  · exact ⟨fun c x h => by cases h <;> simp, fun c e h => by cases h <;> first | rfl | trivial⟩

/-- C71: every response to a request that names a flow travels in the response mode to use for that flow. -/
theorem C71_delivery (h : Runs (handleRequest policy lib r) (pre ++ [wrote resp]) o) (ha : Asks (r.formValue b!"response_type") f) :
    ∃ ps, Delivers resp (r.formValue b!"redirect_uri") ps (channel (modeUsed policy f (r.formValue b!"response_mode"))) := by
  obtain ⟨c, e, h1, h2⟩ := C70_table h
  have hlast : interactions (pre ++ [wrote resp]) = interactions pre ++ [wrote resp] := by
    simp [interactions, wrote, counts]
  -- the calls of a row contain no response, and its mode is the one to use
  have hrow : (∀ e ∈ c, ∀ q, e.q ≠ .write q) ∧ EndsIn (modeUsed policy f (r.formValue b!"response_mode")) e := by
    rcases h1 with ⟨e', he, h1⟩ | ⟨c1, c2, clnt, rfl, h1, h3⟩
    · cases he
      cases h1 <;> exact ⟨by simp, trivial⟩
    · have n1 : ∀ e ∈ c1, ∀ q, e.q ≠ .write q := by cases h1; simp
      rcases h3 with ⟨e', he, h3⟩ | ⟨c3, c4, req, rfl, h3, h4⟩
      · cases he
        rw [List.forall_mem_append]
        cases h3 with
        | noResponseType hn => exact absurd hn (asks_ne ha)
        | responseType _ hn => exact absurd ha (hn f)
        | fault ha' => obtain rfl := asks_unique ha ha'; exact ⟨⟨n1, by simp⟩, rfl⟩
        | noLocale ha' => obtain rfl := asks_unique ha ha'; exact ⟨⟨n1, by simp⟩, rfl⟩
      · rw [List.forall_mem_append, List.forall_mem_append]
        have hd := inMode_decided (policy := policy) (lib := lib) (clnt := clnt) (req := req)
        have n4 := hd.silent _ _ h4
        have m4 := hd.mode _ _ h4
        cases h3 with
        | ok ha' => obtain rfl := asks_unique ha ha'; exact ⟨⟨n1, by simp, n4⟩, m4⟩
  obtain ⟨hnw, hm⟩ := hrow
  have hno : interactions (pre ++ [wrote resp]) ≠ c := by
    intro he
    rw [hlast] at he
    exact hnw (wrote resp) (by rw [← he]; simp) resp rfl
  have hsame : ∀ resp', interactions (pre ++ [wrote resp]) = c ++ [wrote resp'] → resp' = resp := by
    intro resp' he
    rw [hlast] at he
    obtain ⟨_, he⟩ := List.append_inj' he rfl
    simp only [wrote, List.cons.injEq, and_true] at he
    cases he; rfl
  cases e with
  | stop b => exact absurd h2.1 hno
  | crash => exact absurd h2.1 hno
  | error mo code desc =>
    rcases h2 with ⟨resp', he, _, hd⟩ | ⟨he, _⟩
    · rw [hsame _ he] at hd
      rw [show mo = _ from hm] at hd
      exact ⟨_, hd⟩
    · exact absurd he hno
  | success mo ps =>
    rcases h2 with ⟨resp', he, _, hd⟩ | ⟨he, _⟩
    · rw [hsame _ he] at hd
      rw [show mo = _ from hm] at hd
      exact ⟨_, hd⟩
    · exact absurd he hno
end

/-- C92: under the default policy errors and successes of a request that names a flow travel in `defaultChannel`. -/
theorem C92_default_delivery (h : Runs (handleRequest .default lib r) (pre ++ [wrote resp]) o)
    (ha : Asks (r.formValue b!"response_type") f) :
    ∃ ps, Delivers resp (r.formValue b!"redirect_uri") ps
      (if r.formValue b!"response_mode" = b!"form_post" then .form
        else if r.formValue b!"response_mode" = b!"fragment" ∨ f.type = .implicit ∨ f.type = .hybrid then .fragment else .query) := by
  rw [← defaultChannel_channel, ← modeUsed_default]
  exact C71_delivery h ha

/-- C92: under the default policy a delivered code is good for 60 seconds. -/
theorem C92_default_code (h : Steps (handleRequest .default lib r) (pre ++ [wrote resp])) :
    ∃ ps ch, Delivers resp (r.formValue b!"redirect_uri") ps ch ∧ ∀ c ∈ valuesOf ps b!"code",
      ∃ info authTime, ⟨.createAuthSession (some info) ⟨r.formValue b!"redirect_uri", c, 60,
          r.formValue b!"code_verifier", r.formValue b!"nonce", authTime⟩, none⟩ ∈ pre := by
  obtain ⟨ps, ch, hd, hc⟩ := C40_handle h
  refine ⟨ps, ch, hd, fun c hx => ?_⟩
  obtain ⟨_, info, at_, _, _, _, _, h5⟩ := hc c hx
  exact ⟨info, at_, h5⟩

/-- C92: the same when the request is completed after a screen. -/
theorem C92_default_code_completed (h : Steps (completeRequest .default lib r) (pre ++ [wrote resp])) :
    ∃ req ps ch, ⟨.continue_, some (some req)⟩ ∈ pre ∧ Delivers resp req.redirectURI ps ch ∧
      ∀ c ∈ valuesOf ps b!"code", ∃ info authTime, ⟨.createAuthSession info ⟨req.redirectURI, c, 60, req.codeVerifier, req.nonce,
          authTime⟩, none⟩ ∈ pre := by
  obtain ⟨req, ps, ch, h1, hd, hc⟩ := C40_complete h
  refine ⟨req, ps, ch, h1, hd, fun c hx => ?_⟩
  obtain ⟨_, info, at_, _, _, _, _, h5⟩ := hc c hx
  exact ⟨info, at_, h5⟩

/-- C92: under the default policy consent is asked for again after a day. -/
theorem C92_default_consent (h : Runs (handleRequest .default lib r) (pre ++ [wrote resp]) (.ok true)) :
    ∃ info now, ⟨.now, now⟩ ∈ pre ∧ now.toInt < info.authorizedAt.toInt + 86400 ∧
      ∃ uid, ⟨.getLoginUserId, some uid⟩ ∈ pre ∧
        ⟨.findAuthInfoByUserIdAndClientId uid (r.formValue b!"client_id"), (some info, none)⟩ ∈ pre := by
  obtain ⟨ps, hw⟩ : ∃ ps, Words (r.formValue b!"prompt") ps := ⟨_, fields_iff.2 rfl⟩
  obtain ⟨_, _, _, info, _, _, _, _, ⟨uid, now, h1, h2, _, _, h3, h4⟩, _⟩ := C37_consent_skipped h hw
  exact ⟨info, now, h3, h4 (by decide), uid, h1, h2⟩

/-- C92: under the default policy an ID token sent with an authorization response says that it expires a day after it was made. -/
theorem C92_default_id_token (h : Runs (handleRequest .default lib r) (pre ++ [wrote resp]) (.ok true)) {ws : List GoStr}
    (hw : Words (r.formValue b!"response_type") ws) (hi : b!"id_token" ∈ ws) :
    ∃ ps ch, ∃ c : Client, ∃ now idt claims, ⟨.findClientById (r.formValue b!"client_id"), (some c, none)⟩ ∈ pre ∧
      Delivers resp (r.formValue b!"redirect_uri") ps ch ∧ valuesOf ps b!"id_token" = [idt] ∧
      SignedBy lib c.idTokenAlg c.idTokenKeyId claims c.idTokenKey idt ∧ ⟨.now, now⟩ ∈ pre ∧ (b!"exp", .float (now + 86400)) ∈ claims := by
  obtain ⟨ps, ch, _, _, hd, _, _, hp⟩ := C41_handle h hw
  rcases hp.idToken with ⟨_, c, i, iss, now, at_, idt, claims, hf, _, _, hn, _, hv, hs, hc⟩ | ⟨hno, _⟩
  · exact ⟨ps, ch, c, now, idt, claims, hf, hd, hv, hs, hn, (hc _ _).2 (.inl (.inr (.inr (.inr (.inl ⟨rfl, rfl⟩)))))⟩
  · exact absurd hi hno

/-! ## The hypotheses are met -/

/-- Successes of a code request and of a hybrid request, and of a request with an unknown response mode. -/
example : (∃ pre resp, Runs (handleRequest .default Sample.lib codeGet) (pre ++ [wrote resp]) (.ok true)) ∧
    (∃ f, Asks (codeGet.formValue b!"response_type") f) ∧
    (∃ pre resp, Runs (handleRequest .default Sample.lib hybridGet) (pre ++ [wrote resp]) (.ok true)) ∧
    Words (hybridGet.formValue b!"response_type") [b!"code", b!"id_token", b!"token"] := by
  obtain ⟨p1, r1, h1, _⟩ := sample_hybrid_success
  obtain ⟨p2, r2, h2, _⟩ := sample_code_success
  exact ⟨⟨p2, r2, h2⟩, ⟨⟨.authorizationCode, false, false⟩, asks_iff.2 (by decide +kernel)⟩, ⟨p1, r1, h1⟩, fields_iff.2 (by decide +kernel)⟩

/-- An unknown response mode is ignored, and a weak one is too. -/
example : (lastWrite (consentedWorld.run (handleRequest .default Sample.lib
      (authGet [(b!"response_type", b!"code"), (b!"scope", b!"openid"), (b!"response_mode", b!"smoke")]))).1).map (fun x => x.headers.any fun h => (b!"https://app/cb?code=").isPrefixOf h.2) = some true ∧
    (lastWrite (consentedWorld.run (handleRequest .default Sample.lib
      (authGet [(b!"response_type", b!"code token"), (b!"scope", b!"openid"), (b!"response_mode", b!"query"), (b!"nonce", b!"n")]))).1).map
        (fun x => x.headers.any fun h => (b!"https://app/cb#access_token=").isPrefixOf h.2) = some true := by decide +kernel

end Goidc.Props
