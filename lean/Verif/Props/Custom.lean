import Verif.Spec.Custom
import Verif.Lemmas.TokenPhases
import Verif.Props.Completeness

/-! # C121: grants of the application -/

namespace Goidc.Props

open Spec TokenEndpoint

variable {cfg cfg' : TokenCfg} {lib : Lib} {r : Req} {t : List Event} {o : Outcome Unit} {hf : GrantFunc}

theorem runs_ending {c : Client} {gt : GoStr} :
    Runs (executeGrantHandler cfg r c gt hf) t o ↔
      ∃ now t2 o' t3, t = ⟨.now, now⟩ :: (t2 ++ t3) ∧ Runs (hf r c now).run t2 o' ∧ EndsAs cfg gt c o' t3 o := by
  have hu : ∀ err, (withURI cfg err).json = OAuthError.json ⟨err.type, err.description, errorPage cfg err⟩ := by
    intro err
    congr 1
    unfold withURI errorPage
    by_cases h : err.uri = []
    · rw [if_pos h, if_neg (not_not_intro h)]
      cases cfg.errorURIBuilder with
      | none => cases err; simp only at h ⊢; rw [h]
      | some f => rfl
    · rw [if_neg h, if_pos h]
  unfold executeGrantHandler
  rw [Prog.bind_eq, runs_bind_ask]
  constructor
  · rintro ⟨now, t', rfl, h⟩
    rw [Prog.bind_eq] at h
    rcases runs_bind.1 h with ⟨x, t2, t3, rfl, h1, h2⟩ | ⟨h1, rfl⟩
    · cases x with
      | error err =>
        obtain ⟨rfl, rfl⟩ := runs_respond.1 h2
        refine ⟨now, t2, _, _, rfl, h1, ?_⟩
        rw [hu]
        exact .error
      | ok res =>
        obtain ⟨t4, rfl, h3⟩ := runs_tlog_bind.1 h2
        obtain ⟨rfl, rfl⟩ := runs_respond.1 h3
        exact ⟨now, t2, _, _, rfl, h1, .tokens⟩
    · exact ⟨now, t', _, [], by simp, h1, .panic⟩
  · rintro ⟨now, t2, o', t3, rfl, h1, h2⟩
    refine ⟨now, _, rfl, ?_⟩
    rw [Prog.bind_eq]
    cases h2 with
    | tokens =>
      refine runs_bind.2 (.inl ⟨_, t2, _, rfl, h1, ?_⟩)
      exact runs_tlog_bind.2 ⟨_, rfl, runs_respond.2 ⟨rfl, rfl⟩⟩
    | error =>
      refine runs_bind.2 (.inl ⟨_, t2, _, rfl, h1, ?_⟩)
      refine runs_respond.2 ⟨?_, rfl⟩
      rw [hu]
      rfl
    | panic => exact runs_bind.2 (.inr ⟨by simpa using h1, rfl⟩)

theorem mayUse_of {c : Client} {t1 : List Event} (h : AuthTrace cfg lib r c t1) : MayUse cfg r c := by
  cases h with
  | secret cid sec b hp ht hm hg => exact fun _ => hg
  | assertion ca hn _ _ _ => exact fun ⟨cid, sec, b, hp⟩ => absurd hp (hn cid sec b)

/-- C121: every POST request for a grant type that has a handler, whatever the handler is, ends in one of two ways.  Either a
client authenticated (and may use the grant type), with nothing but the calls for that; then the handler ran, once, with the
request, that client and the time read then; and then the endpoint answered as the handler ended.  Or the handler never ran:
nothing but calls of the authentication was made, and the request was refused (or, see C08, crashed). -/
theorem C121_served (h : Runs (handler cfg lib r) t o) (hm : r.method = b!"POST") (hreg : Registered cfg r hf) :
    (∃ c t1 now t2 t3 o', t = t1 ++ ⟨.now, now⟩ :: (t2 ++ t3) ∧ Authenticated cfg lib r c t1 ∧ MayUse cfg r c ∧
      (∀ e ∈ t1, IsAuthCall e.q ∨ e.q = .wallNow) ∧ Runs (hf r c now).run t2 o' ∧
      EndsAs cfg (r.formValue b!"grant_type") c o' t3 o) ∨
    ((∀ e ∈ t, IsAuthCall e.q ∨ e.q = .wallNow ∨ e.q.isLog = true ∨ e.q.isWrite = true) ∧
      (o = .panic ∨ ∃ pre resp, t = pre ++ [wrote resp] ∧ resp.status ≠ 200)) := by
  have hnow : ¬ PhaseOne .now := by
    intro h
    rcases h with h | h | h | h
    · exact h
    · cases h
    · cases h
    · cases h
  rcases runs_phases h with h1 | ⟨_, hgt, hf', c, t1, t2, hr, rfl, ha, hx⟩
  · refine .inr ⟨h1, ?_⟩
    cases o with
    | panic => exact .inl rfl
    | ok u =>
      rcases runs_handler h with h2 | ⟨_, _, hf', c, t1, t2, hr, rfl, ha, hx⟩
      · exact .inr h2
      · obtain ⟨now, t3, o', t4, rfl, _⟩ := runs_ending.1 hx
        exact absurd (h1 ⟨.now, now⟩ (by simp)) hnow
  · obtain rfl : hf' = hf := by
      have h1 : lookupHandler cfg.handlers (r.formValue b!"grant_type") = some hf' := hr
      have h2 : lookupHandler cfg.handlers (r.formValue b!"grant_type") = some hf := hreg
      rw [h1] at h2
      exact Option.some.inj h2
    obtain ⟨now, t3, o', t4, rfl, h3, h4⟩ := runs_ending.1 hx
    obtain ⟨h5, h6⟩ := authTrace_authenticated ha
    exact .inl ⟨c, t1, now, t3, t4, o', rfl, h5, mayUse_of ha, h6, h3, h4⟩

theorem authTrace_head {c : Client} {t1 : List Event} (h : AuthTrace cfg lib r c t1) :
    ∃ x l, t1 = ⟨.findClientById x, (some c, none)⟩ :: l := by
  cases h with
  | secret cid sec b hp ht hm hg => exact ⟨_, _, ht⟩
  | assertion ca hn _ _ hrun =>
    obtain ⟨tk, sub, wall, exp, aud, _, _, _, _, _, _, _, _, rfl⟩ := runs_byAssertion hrun
    exact ⟨_, _, rfl⟩

theorem authTrace_handlers {c : Client} {t1 : List Event} {hs : List (GoStr × GrantFunc)} (h : AuthTrace cfg lib r c t1) :
    AuthTrace { cfg with handlers := hs } lib r c t1 := by
  cases h with
  | secret cid sec b hp ht hm hg => exact .secret cid sec b hp ht hm hg
  | assertion ca hn ha hp hrun => exact .assertion ca hn ha hp hrun

theorem authTrace_runs {c : Client} {t1 t2 : List Event} (hm : r.method = b!"POST") (hgt : r.formValue b!"grant_type" ≠ [])
    (hreg : Registered cfg r hf) (h : AuthTrace cfg lib r c t1)
    (hx : Runs (executeGrantHandler cfg r c (r.formValue b!"grant_type") hf) t2 o) : Runs (handler cfg lib r) (t1 ++ t2) o := by
  unfold handler
  rw [if_neg (not_not_intro hm)]
  dsimp only
  rw [if_neg hgt, show lookupHandler cfg.handlers (r.formValue b!"grant_type") = some hf from hreg]
  dsimp only
  cases h with
  | secret cid sec b hp ht hms hg =>
    rw [findClientCredential_iff.2 hp]
    dsimp only
    rw [Prog.bind_eq]
    exact runs_bind.2 (.inl ⟨some c, t1, t2, rfl, runs_bySecret.2 ⟨ht, hms, hg⟩, hx⟩)
  | assertion ca hn ha hp hrun =>
    rw [findClientCredential_none.2 hn, if_pos ha, findClientAssertion_iff.2 hp]
    dsimp only
    rw [Prog.bind_eq]
    exact runs_bind.2 (.inl ⟨some c, t1, t2, rfl, hrun, hx⟩)

theorem first_now {a b t2 t2' : List Event} {x y : Int64} (ha : ∀ e ∈ a, IsAuthCall e.q ∨ e.q = .wallNow)
    (hb : ∀ e ∈ b, IsAuthCall e.q ∨ e.q = .wallNow) (h : a ++ ⟨.now, x⟩ :: t2 = b ++ ⟨.now, y⟩ :: t2') :
    a = b ∧ x = y ∧ t2 = t2' := by
  induction a generalizing b with
  | nil =>
    cases b with
    | nil =>
      simp only [List.nil_append, List.cons.injEq, Event.mk.injEq, true_and] at h
      exact ⟨rfl, eq_of_heq h.1, h.2⟩
    | cons e b =>
      simp only [List.nil_append, List.cons_append, List.cons.injEq] at h
      have := hb e (by simp)
      rw [← h.1] at this
      rcases this with this | this
      · exact this.elim
      · cases this
  | cons e a ih =>
    cases b with
    | nil =>
      simp only [List.nil_append, List.cons_append, List.cons.injEq] at h
      have := ha e (by simp)
      rw [h.1] at this
      rcases this with this | this
      · exact this.elim
      · cases this
    | cons e' b =>
      simp only [List.cons_append, List.cons.injEq] at h
      obtain ⟨h1, h2, h3⟩ := ih (fun e he => ha e (by simp [he])) (fun e he => hb e (by simp [he])) h.2
      exact ⟨by rw [h.1, h1], h2, h3⟩

/-- C121, what comes before and after does not depend on the handler: had another handler been registered (and whatever others
beside it), then after the same answers during authentication it would have been called in its place, for the same client; and
every run of it would have made a run of the endpoint, and no others. -/
theorem C121_plugged {hf' : GrantFunc} {hs : List (GoStr × GrantFunc)} {t1 t2 : List Event} {now : Int64} (hm : r.method = b!"POST")
    (hreg : Registered cfg r hf) (hreg' : Registered { cfg with handlers := hs } r hf')
    (ha : ∀ e ∈ t1, IsAuthCall e.q ∨ e.q = .wallNow) (h : Runs (handler cfg lib r) (t1 ++ ⟨.now, now⟩ :: t2) o) :
    ∃ c, Authenticated cfg lib r c t1 ∧ ∀ (now' : Int64) (t3 : List Event) (o' : Outcome Unit),
      Runs (handler { cfg with handlers := hs } lib r) (t1 ++ ⟨.now, now'⟩ :: t3) o' ↔
        ∃ t4 t5 o2, t3 = t4 ++ t5 ∧ Runs (hf' r c now').run t4 o2 ∧ EndsAs cfg (r.formValue b!"grant_type") c o2 t5 o' := by
  have hnow : ¬ PhaseOne .now := by
    intro h
    rcases h with h | h | h | h
    · exact h
    · cases h
    · cases h
    · cases h
  have key : ∀ {cfg : TokenCfg} {hf : GrantFunc} {t1 t2 : List Event} {now : Int64} {o : Outcome Unit}, Registered cfg r hf →
      (∀ e ∈ t1, IsAuthCall e.q ∨ e.q = .wallNow) → Runs (handler cfg lib r) (t1 ++ ⟨.now, now⟩ :: t2) o →
      r.formValue b!"grant_type" ≠ [] ∧ ∃ c, AuthTrace cfg lib r c t1 ∧ ∃ t4 t5 o2, t2 = t4 ++ t5 ∧ Runs (hf r c now).run t4 o2 ∧
        EndsAs cfg (r.formValue b!"grant_type") c o2 t5 o := by
    intro cfg hf t1 t2 now o hreg ha h
    rcases runs_phases h with h1 | ⟨_, hgt, hf', c, t1', t2', hr, he, hat, hx⟩
    · exact absurd (h1 ⟨.now, now⟩ (by simp)) hnow
    · obtain rfl : hf' = hf := by
        have h1 : lookupHandler cfg.handlers (r.formValue b!"grant_type") = some hf' := hr
        have h2 : lookupHandler cfg.handlers (r.formValue b!"grant_type") = some hf := hreg
        rw [h1] at h2
        exact Option.some.inj h2
      obtain ⟨now', t3, o', t4, rfl, h3, h4⟩ := runs_ending.1 hx
      obtain ⟨rfl, rfl, rfl⟩ := first_now ha (authTrace_authenticated hat).2 he
      exact ⟨hgt, c, hat, t3, t4, o', rfl, h3, h4⟩
  obtain ⟨hgt, c, hat, _⟩ := key hreg ha h
  refine ⟨c, (authTrace_authenticated hat).1, fun now' t3 o' => ⟨fun h' => ?_, ?_⟩⟩
  · obtain ⟨_, c', hat', t4, t5, o2, e1, e2, e3⟩ := key hreg' ha h'
    obtain rfl : c' = c := by
      obtain ⟨x, l, rfl⟩ := authTrace_head hat
      obtain ⟨x', l', e⟩ := authTrace_head hat'
      simp only [List.cons.injEq] at e
      have := e.1
      cases this
      rfl
    refine ⟨t4, t5, o2, e1, e2, ?_⟩
    cases e3 with
    | tokens => exact .tokens
    | error => exact .error
    | panic => exact .panic
  · rintro ⟨t4, t5, o2, rfl, e1, e2⟩
    refine authTrace_runs hm hgt hreg' (authTrace_handlers hat) (runs_ending.2 ⟨now', t4, o2, t5, rfl, e1, ?_⟩)
    cases e2 with
    | tokens => exact .tokens
    | error => exact .error
    | panic => exact .panic

/-- C121: handlers of other grant types have no influence. -/
theorem C121_others (hs : List (GoStr × GrantFunc))
    (h : ∀ hf, Registered cfg r hf ↔ Registered { cfg with handlers := hs } r hf) :
    Runs (handler cfg lib r) t o ↔ Runs (handler { cfg with handlers := hs } lib r) t o := by
  have he : lookupHandler cfg.handlers (r.formValue b!"grant_type") = lookupHandler hs (r.formValue b!"grant_type") := by
    apply Option.ext
    exact h
  unfold handler
  dsimp only
  rw [he]
  rfl

/-! ## A grant of an application -/

/-- A handler an application may write: it issues for user 7 whatever scope is asked for, unless it is empty. -/
def sampleGrant : GrantFunc := fun r c _ => do
  if r.formValue b!"scope" = [] then throw (OAuthError.new .invalidScope b!"no scope")
  match ← gask (.createOrUpdateAuthInfo 7 c.id (r.formValue b!"scope")) with
  | (some info, none) =>
    match ← gask (.createOAuthToken (some info) false) with
    | (some tk, none) => pure (⟨b!"Bearer", tk.accessToken, tk.accessTokenExpiresIn, [], info.scope, []⟩ : Response)
    | _ => throw (OAuthError.simple .serverError)
  | _ => throw (OAuthError.simple .serverError)

/-- The endpoint with it, in place of the code grant. -/
def customCfg : TokenCfg := support Sample.tokenCfg Grant.typeAuthorizationCode sampleGrant

/-- It is called, and answered as it says. -/
example : Registered customCfg (Sample.post Sample.codeBody) sampleGrant ∧
    ({} : Sample.World).status (handler customCfg Sample.lib (Sample.post Sample.codeBody)) = some 400 ∧
    ({} : Sample.World).status (handler customCfg Sample.lib (Sample.post (Sample.codeBody ++ [(b!"scope", b!"x")]))) = some 200 ∧
    ({} : Sample.World).status (handler customCfg Sample.lib { Sample.post Sample.codeBody with headers := [] }) = some 401 :=
  ⟨rfl, by decide +kernel, by decide +kernel, by decide +kernel⟩

/-- The hypotheses of `C121_plugged`: a run of the code grant, and the other handler that could be in its place. -/
example : ∃ t1 now t2 o, (∀ e ∈ t1, IsAuthCall e.q ∨ e.q = .wallNow) ∧
    Runs (handler Sample.tokenCfg Sample.lib (Sample.post Sample.codeBody)) (t1 ++ ⟨.now, now⟩ :: t2) o ∧
    Registered { Sample.tokenCfg with handlers := customCfg.handlers } (Sample.post Sample.codeBody) sampleGrant := by
  have h := ({} : Sample.World).runs (handler Sample.tokenCfg Sample.lib (Sample.post Sample.codeBody))
  rcases C121_served h rfl (hf := Grant.authorizationCode Sample.lib) rfl with ⟨c, t1, now, t2, t3, o', e, _, _, ha, _⟩ | ⟨hno, _⟩
  · exact ⟨t1, now, t2 ++ t3, _, ha, e ▸ h, rfl⟩
  · exfalso
    have hx : (({} : Sample.World).run (handler Sample.tokenCfg Sample.lib (Sample.post Sample.codeBody))).1.any
        (fun e => match e.q with | .now => true | _ => false) = true := by decide +kernel
    obtain ⟨e, he, hq⟩ := List.any_eq_true.1 hx
    have hn := hno e he
    have hq : e.q = .now := by
      cases hc : e.q <;> rw [hc] at hq <;> first | rfl | (simp at hq)
    rw [hq] at hn
    rcases hn with hn | hn | hn | hn
    · exact hn
    · cases hn
    · cases hn
    · cases hn

end Goidc.Props
