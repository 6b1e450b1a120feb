import Verif.Props.AuthPrompt
import Verif.Props.Ignored
import Verif.Props.Protector
import Verif.Props.Insensitive
import Verif.Props.Grants

/-! # How far the defects reach: exact counterparts of C29_false, C33_false and C35_false -/

namespace Goidc.Props

open Spec AuthzEndpoint

variable {policy : Policy} {lib : Lib} {r r' : Req} {t : List Event}

/-! ## C35 -/

/-- The result of `p` is never used: it always leaves the surrounding body. -/
def Leaves {α : Type} (p : AuthM α) : Prop := ∀ {β : Type} (f g : α → AuthM β), p >>= f = p >>= g

theorem leaves_throw {α : Type} {b : Bool} : Leaves (throw b : AuthM α) := fun _ _ => rfl

theorem leaves_bind {α β : Type} {p : AuthM α} {k : α → AuthM β} (h : ∀ a, Leaves (k a)) : Leaves (p >>= k) := by
  intro γ f g
  rw [bind_assoc, bind_assoc]
  exact congrArg _ (funext fun a => h a f g)

theorem leaves_panic {α : Type} : Leaves (apanic : AuthM α) := fun _ _ => rfl

theorem leaves_errorTo {α : Type} {mode uri typ desc state : GoStr} : Leaves (errorTo lib r mode uri typ desc state : AuthM α) :=
  leaves_bind fun _ => leaves_throw

theorem leaves_callback {α : Type} {mode uri state m : GoStr} : Leaves (callbackFailed lib r mode uri state m : AuthM α) :=
  leaves_bind fun _ => leaves_errorTo

theorem leaves_finish {α : Type} {info : AuthInfo} {req : Request} : Leaves (finish policy lib r info req : AuthM α) :=
  leaves_bind fun _ => leaves_throw

theorem leaves_none {α : Type} {req : Request} : Leaves (noneComplete policy lib r req : AuthM α) := by
  unfold noneComplete
  refine leaves_bind fun u => ?_
  split
  · exact leaves_callback
  · refine leaves_bind fun a => ?_
    split
    · exact leaves_errorTo
    · exact leaves_errorTo
    · exact leaves_errorTo
    · exact leaves_errorTo
    · refine leaves_bind fun ok => ?_
      split
      · exact leaves_finish
      · exact leaves_errorTo

theorem leaves_promptNone {c : Client} {req : Request} (hc : c.nonePromptPolicy ≠ .other) :
    Leaves (promptNone policy lib r c req) := by
  unfold promptNone
  split
  · exact leaves_bind fun _ => leaves_errorTo
  · exact leaves_bind fun _ => leaves_none
  · split
    · exact leaves_errorTo
    · exact leaves_bind fun _ => leaves_bind fun _ => leaves_none
  · exact leaves_bind fun _ => leaves_bind fun _ => leaves_none
  · rename_i h; exact absurd h hc

theorem fail_age {rh : GoStr} {req : Request} {m : Int64} :
    completeFail lib r rh { req with maxAge := m } = completeFail lib r rh req := rfl
theorem cbfail_age {rh k : GoStr} {req : Request} {m : Int64} :
    completeCallbackFail lib r rh { req with maxAge := m } k = completeCallbackFail lib r rh req k := rfl
theorem idt_age {c i f a tk cd} {req : Request} {m : Int64} :
    frontIdToken policy lib c i f { req with maxAge := m } a tk cd = frontIdToken policy lib c i f req a tk cd := by
  unfold frontIdToken
  rfl
theorem state_age {req : Request} {m : Int64} : stateParam { req with maxAge := m } = stateParam req := rfl
theorem scope_age {req : Request} {m : Int64} : scopeParam { req with maxAge := m } = scopeParam req := rfl
theorem session_age {req : Request} {m e a : Int64} {c : GoStr} :
    Request.toSession { req with maxAge := m } c e a = req.toSession c e a := rfl
theorem code_age {rh : GoStr} {info : Option AuthInfo} {req : Request} {m : Int64} :
    completeCode policy lib r rh info { req with maxAge := m } = completeCode policy lib r rh info req := by
  refine bind_congr fun x => ?_
  rcases x with _ | code
  · rfl
  · refine bind_congr fun y => ?_
    rcases y with _ | a
    · rfl
    · refine bind_congr fun z => ?_
      rcases z with _ | e <;> rfl
theorem implicit_age {rh f} {info : Option AuthInfo} {req : Request} {m : Int64} :
    completeImplicit policy lib r rh info { req with maxAge := m } f = completeImplicit policy lib r rh info req f := by
  refine bind_congr fun x => ?_
  rcases x with ⟨c, _ | e⟩
  · refine bind_congr fun y => ?_
    rcases y with _ | ⟨a, b⟩
    · rfl
    · refine bind_congr fun z => ?_
      rcases z with _ | w
      · rfl
      · refine bind_congr fun v => ?_
        rcases v with _ | e <;> rfl
  · rfl
theorem hybrid_age {rh f} {info : Option AuthInfo} {req : Request} {m : Int64} :
    completeHybrid policy lib r rh info { req with maxAge := m } f = completeHybrid policy lib r rh info req f := by
  refine bind_congr fun x => ?_
  rcases x with _ | code
  · rfl
  · refine bind_congr fun y => ?_
    rcases y with _ | a
    · rfl
    · refine bind_congr fun z => ?_
      rcases z with _ | e
      · refine bind_congr fun c => ?_
        rcases c with ⟨c, _ | e⟩
        · refine bind_congr fun y => ?_
          rcases y with _ | ⟨a, b⟩
          · rfl
          · refine bind_congr fun v => ?_
            rcases v with _ | e <;> rfl
        · rfl
      · rfl

theorem complete_age {rh : GoStr} {info : Option AuthInfo} {req : Request} {m : Int64} :
    complete policy lib r rh info { req with maxAge := m } = complete policy lib r rh info req := by
  unfold complete
  simp only [code_age, implicit_age, hybrid_age]

theorem none_age {α : Type} {req : Request} {m : Int64} :
    (noneComplete policy lib r { req with maxAge := m } : AuthM α) = noneComplete policy lib r req := by
  refine bind_congr fun x => ?_
  rcases x with _ | u
  · rfl
  · refine bind_congr fun y => ?_
    rcases y with ⟨_ | i, _ | _ | _ | _ | _⟩ <;> try rfl
    show (consentCovers policy i req >>= _) = (consentCovers policy i req >>= _)
    refine bind_congr fun ok => ?_
    unfold finish
    rw [complete_age]

theorem promptNone_age {c : Client} {req : Request} {m : Int64} :
    promptNone policy lib r c { req with maxAge := m } = promptNone policy lib r c req := by
  unfold promptNone
  simp only [none_age]
  rfl

/-- The request has no `max_age`, or one within the bounds of the policy. -/
def AgeInOrder (policy : Policy) (r : Req) : Prop :=
  r.formValue b!"max_age" = [] ∨ ∃ m, SignedDecimal (r.formValue b!"max_age") m ∧
    policy.minMaxAge.toInt ≤ m ∧ m ≤ policy.maxMaxAge.toInt

theorem age_checked (h : AgeInOrder policy r) :
    ∃ ma, ∀ mode uri state, checkMaxAge policy lib r mode uri state = pure ma := by
  rcases h with h | ⟨m, hm, h1, h2⟩
  · exact ⟨0, fun _ _ _ => by unfold checkMaxAge; simp [h]⟩
  · have hne : r.formValue b!"max_age" ≠ [] := by
      intro h0
      rw [h0] at hm
      obtain ⟨ds, ⟨hne, _⟩, ⟨h, _⟩ | ⟨h, _⟩ | ⟨h, _⟩⟩ := hm
      · exact hne h.symm
      · cases h
      · cases h
    have hv : (Int64.ofInt m).toInt = m := by
      have := policy.minMaxAge.le_toInt
      have := policy.maxMaxAge.toInt_lt
      exact Int64.toInt_ofInt_of_le (by omega) (by omega)
    have ha : atoi (r.formValue b!"max_age") = some (Int64.ofInt m) := (atoi_iff _ _).2 (by rw [hv]; exact hm)
    refine ⟨Int64.ofInt m, fun _ _ _ => ?_⟩
    unfold checkMaxAge
    dsimp only
    rw [if_neg hne, ha]
    dsimp only
    rw [if_neg (by rw [Int64.lt_iff_toInt_lt, hv]; omega),
      if_neg (by show ¬ policy.maxMaxAge < _; rw [Int64.lt_iff_toInt_lt, hv]; omega)]

theorem front_promptNone (hm : r.method = r'.method) (hp : r.path = r'.path) (c : Client) (req : Request) :
    promptNone policy lib r c req = promptNone policy lib r' c req := by
  have al : ∀ {lv ev ps}, AuthzEndpoint.alog lv r ev ps = AuthzEndpoint.alog lv r' ev ps := front_alog hp
  have et : ∀ {α : Type} {mode uri typ desc state}, (errorTo lib r mode uri typ desc state : AuthM α) =
    errorTo lib r' mode uri typ desc state := front_errorTo hm
  have cf : ∀ {α : Type} {mode uri state m}, (AuthzEndpoint.callbackFailed lib r mode uri state m : AuthM α) =
    AuthzEndpoint.callbackFailed lib r' mode uri state m := front_callback hm hp
  have hfin : ∀ {α : Type} {info req}, (finish policy lib r info req : AuthM α) = finish policy lib r' info req := by
    intro α info req
    unfold finish
    rw [front_complete hm hp]
  have hn : ∀ {α : Type} {req}, (noneComplete policy lib r req : AuthM α) = noneComplete policy lib r' req := by
    intro α req
    unfold noneComplete
    simp only [cf, et, hfin]
  unfold promptNone requireLogin requireMatch checkIdTokenHint
  simp only [al, et, cf, hn]

theorem decide_silent (hm : r.method = r'.method) (hp : r.path = r'.path) {c : Client} (hc : c.nonePromptPolicy ≠ .other)
    {req req' : Request} {m : Int64} (he : req' = { req with maxAge := m }) (hq : req.prompt = b!"none") :
    decideRequest policy lib r c req' = decideRequest policy lib r' c req := by
  subst he
  unfold decideRequest
  rw [if_pos (show req.prompt = Prompt.pNone from hq), if_pos (show req.prompt = Prompt.pNone from hq), promptNone_age, front_promptNone hm hp]
  exact leaves_promptNone hc _ _

/-- Two requests that differ at most in their `max_age`. -/
structure SameButAge (r r' : Req) : Prop where
  method : r.method = r'.method
  path : r.path = r'.path
  form : ∀ n ∈ authorizationParamNames, n ≠ b!"max_age" → r.formValue n = r'.formValue n

theorem silent_age {c : Client} (h : SameButAge r r') (hp : r.formValue b!"prompt" = b!"none")
    (ha : AgeInOrder policy r) (ha' : AgeInOrder policy r') (hc : c.nonePromptPolicy ≠ .other) :
    (buildRequest policy lib r c >>= decideRequest policy lib r c) =
      buildRequest policy lib r' c >>= decideRequest policy lib r' c := by
  obtain ⟨ma, e⟩ := age_checked (lib := lib) ha
  obtain ⟨ma', e'⟩ := age_checked (lib := lib) ha'
  have hk : ∀ n ∈ authorizationParamNames.filter (· ≠ b!"max_age"), r.formValue n = r'.formValue n := fun n hn => by
    obtain ⟨h1, h2⟩ := List.mem_filter.1 hn
    exact h.form n h1 (by simpa using h2)
  have hl : authorizationParamNames.filter (· ≠ b!"max_age") =
    [b!"client_id", b!"redirect_uri", b!"response_type", b!"response_mode", b!"state", b!"display",
     b!"prompt", b!"scope", b!"nonce", b!"code_verifier", b!"ui_locales", b!"id_token_hint",
     b!"login_hint"] := by decide
  rw [hl] at hk
  simp only [List.forall_mem_cons] at hk
  obtain ⟨k1, k2, k3, k4, k5, k6, k8, k9, k10, k11, k12, k13, k14, -⟩ := hk
  have al : ∀ {lv ev ps}, AuthzEndpoint.alog lv r ev ps = AuthzEndpoint.alog lv r' ev ps := front_alog h.path
  have et : ∀ {α : Type} {mode uri typ desc state}, (errorTo lib r mode uri typ desc state : AuthM α) =
    errorTo lib r' mode uri typ desc state := front_errorTo h.method
  have hlo := front_locale (lib := lib) h.method h.path k12
  have cp : ∀ mode uri state, checkPrompt lib r' mode uri state = pure b!"none" := by
    intro mode uri state
    unfold checkPrompt
    rw [← k8, hp]
    rfl
  have cp' : ∀ mode uri state, checkPrompt lib r mode uri state = pure b!"none" := by
    intro mode uri state
    unfold checkPrompt
    rw [hp]
    rfl
  unfold buildRequest
  simp only [e, e', cp, cp']
  unfold judgeFlow pickMode checkModeLevel checkFlow checkDisplay offlineScope
      checkScope checkNonce checkVerifier
  simp only [k1, k2, k3, k4, k5, k6, k9, k10, k11, k13, k14, al, et, hlo, bind_assoc, pure_bind]
  repeat' refine bind_congr fun _ => ?_
  exact decide_silent h.method h.path hc (m := ma) rfl rfl

/-- What `HandleRequest` does once it knows the client. -/
def afterClient (policy : Policy) (lib : Lib) (r : Req) : Except Bool Client → Prog Bool
  | .error b => pure b
  | .ok c => do
    match ← (buildRequest policy lib r c >>= decideRequest policy lib r c).run with
    | .ok b => pure b
    | .error b => pure b

theorem handleRequest_after : handleRequest policy lib r = (identify r).run.bind (afterClient policy lib r) := by
  unfold handleRequest
  show ((handleRequestM policy lib r).run.bind _) = _
  have : (handleRequestM policy lib r).run = (identify r).run.bind (fun
      | .ok c => (buildRequest policy lib r c >>= decideRequest policy lib r c).run
      | .error b => pure (.error b)) := by
    show (identify r >>= fun c => buildRequest policy lib r c >>= decideRequest policy lib r c).run = _
    rw [xrun_bind]
    show ((identify r).run >>= _) = ((identify r).run >>= _)
    refine bind_congr fun x => ?_
    cases x <;> rfl
  rw [this]
  show ((identify r).run >>= _ >>= _) = ((identify r).run >>= _)
  rw [bind_assoc]
  refine bind_congr fun x => ?_
  cases x <;> rfl

theorem silent_one (h : SameButAge r r') (hp : r.formValue b!"prompt" = b!"none")
    (ha : AgeInOrder policy r) (ha' : AgeInOrder policy r') {o : Outcome Bool}
    (hc : ∀ clnt, FoundClient r clnt t → clnt.nonePromptPolicy ≠ .other)
    (hr : Runs (handleRequest policy lib r) t o) : Runs (handleRequest policy lib r') t o := by
  rw [handleRequest_after] at hr ⊢
  have hi : identify r = identify r' := front_identify h.path (h.form _ (by decide) (by decide)) (h.form _ (by decide) (by decide))
  rw [← hi]
  rw [runs_bind] at hr ⊢
  rcases hr with ⟨a, t1, t2, rfl, h1, h2⟩ | h1
  · refine .inl ⟨a, t1, t2, rfl, h1, ?_⟩
    cases a with
    | error b => exact h2
    | ok c =>
      have hid := (ah_identify r).ok h1
      have : c.nonePromptPolicy ≠ .other := hc c (foundClient_mono (identified_found hid).1 fun e he => by simp [he])
      simp only [afterClient] at h2 ⊢
      rw [← silent_age h hp ha ha' this]
      exact h2
  · exact .inr h1

/-- How far C35_false reaches: with `prompt=none` the value of `max_age` is of no consequence whatever.  Two requests that differ
in nothing but `max_age`, both values being in order, are served alike: the same calls, the same answers, the same
response. -/
theorem C35_none_unread (h : SameButAge r r') (hp : r.formValue b!"prompt" = b!"none")
    (ha : AgeInOrder policy r) (ha' : AgeInOrder policy r') {o : Outcome Bool}
    (hc : ∀ clnt, FoundClient r clnt t → clnt.nonePromptPolicy ≠ .other) :
    Runs (handleRequest policy lib r) t o ↔ Runs (handleRequest policy lib r') t o := by
  refine ⟨silent_one h hp ha ha' hc, silent_one ⟨h.method.symm, h.path.symm, fun n h1 h2 => (h.form n h1 h2).symm⟩
    ((h.form _ (by decide) (by decide)).symm.trans hp) ha' ha fun c hf => hc c ?_⟩
  unfold FoundClient at hf ⊢
  rw [h.form b!"client_id" (by decide) (by decide)]
  exact hf

/-- A request without `max_age` and one that asks for a login of the last minute. -/
example : SameButAge (promptGet b!"none" []) (promptGet b!"none" [(b!"max_age", b!"60")]) ∧
    AgeInOrder .default (promptGet b!"none" []) ∧ AgeInOrder .default (promptGet b!"none" [(b!"max_age", b!"60")]) := by
  refine ⟨⟨rfl, rfl, ?_⟩, .inl (by decide +kernel), .inr ⟨60, ⟨b!"60", ⟨by decide, by decide⟩, .inl ⟨by decide +kernel, by decide⟩⟩,
    by decide, by decide⟩⟩
  decide +kernel

/-! ## C33 -/

/-- How far C33_false reaches: a screen is shown on a prompt that contains `none` only if `none` is repeated, and nothing
else is in it. -/
theorem C33_extent (h : Steps (handleRequest policy lib r) t) {ws : List GoStr}
    (hw : Words (r.formValue b!"prompt") ws) (hn : b!"none" ∈ ws)
    (hc : ∀ clnt, FoundClient r clnt t → clnt.nonePromptPolicy ≠ .other) {e : Event} (he : e ∈ t)
    (hs : (∃ req, e.q = .showLoginScreen req) ∨ ∃ c req, e.q = .showConsentScreen c req) :
    2 ≤ ws.length ∧ ∀ w ∈ ws, w = b!"none" := by
  obtain ⟨q, x⟩ := e
  have hq : q.isPrompt = true := by
    rcases hs with ⟨req, h⟩ | ⟨c, req, h⟩ <;> (dsimp only at h; subst h; rfl)
  obtain ⟨pre, post, rfl⟩ := List.append_of_mem he
  obtain ⟨clnt, f, req, hs⟩ := handleRequest_shown h hq
  have hp := hs.built.prompt
  have hall : ∀ w ∈ ws, w = b!"none" := by
    rcases hs.built.promptValid with h0 | hv
    · rw [← hp, h0] at hw
      have : ws = [[]] := words_unique hw (by decide +kernel)
      rw [this] at hn
      exact absurd hn (by decide)
    · rw [hp] at hv
      exact ((C48_prompt_validate_iff hw).1 hv).2 hn
  refine ⟨?_, hall⟩
  rcases ws with _ | ⟨w, _ | ⟨w', l⟩⟩
  · cases hn
  · have : w = b!"none" := hall w (by simp)
    subst this
    have hw' : Words b!"none" [b!"none"] := by decide +kernel
    have he : r.formValue b!"prompt" = b!"none" := hw.2.2.symm.trans hw'.2.2
    rcases hs.may with hm | hm
    · exact absurd (hp.trans he) hm
    · exact absurd hm (hc clnt (foundClient_mono hs.found fun e he => by simp [he]))
  · simp

/-! ## C29 -/

open ResourceProtector in
/-- How far C29_false reaches: unless the Authorization header says `Bearer` with an empty token, the body and
the URL of a request play no part, whatever the policy: the same calls are made, the same verdict reached, and an admitted
request gets the same identity. -/
theorem C29_body_ignored {cfg : ProtectorCfg} {body query : Params} {b : Bool} {r1 : Req}
    (hh : ∀ scheme rest, Words (r.header b!"Authorization") (scheme :: [] :: rest) → toLower scheme ≠ b!"bearer")
    (h : Runs (validate cfg lib r) t (.ok (b, r1))) :
    ∃ r1', Runs (validate cfg lib { r with body := body, query := query }) t (.ok (b, r1')) ∧
      (b = true → ∀ n ∈ identityHeaders, headerValues r1' n = headerValues r1 n) := by
  refine (alike_verdict (protector_alike' (r := r) (r' := { r with body := body, query := query }) ?_ rfl rfl rfl)).1 b r1 h
  have hd : ∀ n, Req.header { r with body := body, query := query } n = r.header n := fun _ => rfl
  unfold findTokenFromRequest
  simp only [hd]
  split
  · rfl
  · split
    · rename_i p0 p1 l he
      split
      · rfl
      · rename_i hb
        split
        · rfl
        · rename_i h1
          have h1 : p1 = [] := Classical.not_not.1 h1
          subst h1
          exact absurd (Classical.not_not.1 hb) (hh p0 l (fields_iff.2 he))
    · rfl

/-- The header of the sample request carries a token; a request without the header qualifies too. -/
example : ∀ scheme rest, Words (sampleBearer.header b!"Authorization") (scheme :: [] :: rest) → toLower scheme ≠ b!"bearer" := by
  intro s l h
  have : Words (sampleBearer.header b!"Authorization") [b!"bEaReR", b!"at"] := by decide +kernel
  cases words_unique h this
example : ∀ scheme rest, Words (Req.header ⟨b!"POST", b!"/me", [], [(b!"access_token", b!"at")], [], false⟩ b!"Authorization") (scheme :: [] :: rest) → toLower scheme ≠ b!"bearer" := by
  intro s l h
  have : Words (Req.header ⟨b!"POST", b!"/me", [], [(b!"access_token", b!"at")], [], false⟩ b!"Authorization") [[]] := by decide +kernel
  cases words_unique h this

/-! ## C63 -/

/-- The assertion that the example of C63_false is granted on is undated, and no client assertion comes with it. -/
example : (∀ tk, zeroExpLib.jwtDecode ((Sample.post Sample.jwtBody).formValue b!"assertion") = some tk → Undated tk) ∧
    ∀ ca, ¬ PresentedAssertion (Sample.post Sample.jwtBody) ca := by
  constructor
  · intro tk h
    have hf : (Sample.post Sample.jwtBody).formValue b!"assertion" = b!"tok" := by decide +kernel
    rw [hf] at h
    simp only [zeroExpLib, if_true, Option.some.injEq] at h
    subst h
    intro n hn v hv
    simp only [List.mem_cons, List.not_mem_nil, or_false] at hn
    rcases hn with rfl | rfl | rfl
    · simp [JwtToken.claim] at hv
      subst hv
      exact .inl rfl
    · simp [JwtToken.claim] at hv
    · simp [JwtToken.claim] at hv
  · intro ca h
    rw [← findClientAssertion_iff] at h
    revert h
    have : TokenEndpoint.findClientAssertion (Sample.post Sample.jwtBody) = none := by decide +kernel
    rw [this]
    simp

end Goidc.Props
