import Verif.Lemmas.Origin

/-! # What precedes key calls at the authorization endpoint -/

namespace Goidc

open Spec AuthzEndpoint

variable {policy : Policy} {lib : Lib} {r : Req} {P : List Event → Query → Prop}

theorem quiet_redirectTo {ty uri ps} : AllQ (fun q => q.isKey = false) (AuthResponse.redirectTo lib r ty uri ps) := by
  unfold AuthResponse.redirectTo AuthResponse.connector
  refine allQ_bind' ?_ fun _ => allQ_ask rfl
  split
  · trivial
  · split <;> trivial

theorem quiet_success {mode uri ps} : AllQ (fun q => q.isKey = false) (AuthResponse.success lib r mode uri ps) := by
  unfold AuthResponse.success
  split
  · exact quiet_redirectTo
  · split
    · exact quiet_redirectTo
    · split
      · exact allQ_bind' (allQ_ask rfl) fun _ => allQ_ask rfl
      · exact quiet_redirectTo

theorem quiet_completeFail {rh req} : AllQ (fun q => q.isKey = false) (completeFail lib r rh req) :=
  allQ_bind' quiet_success fun _ => allQ_pure

theorem quiet_completeCallbackFail {rh req m} :
    AllQ (fun q => q.isKey = false) (completeCallbackFail lib r rh req m) :=
  allQ_bind' (allQ_ask rfl) fun _ => quiet_completeFail

theorem quiet_frontIdToken {clnt info f req} {at_ : Int64} {atk code} :
    AllQ (fun q => q.isKey = false) (frontIdToken policy lib clnt info f req at_ atk code) := by
  unfold frontIdToken
  split
  · split
    · trivial
    · refine allQ_bind' (allQ_ask rfl) fun _ => ?_
      split
      · trivial
      · refine allQ_bind' (allQ_ask rfl) fun _ => ?_
        dsimp only
        split <;> trivial
  · trivial

theorem allH_complete {rh info req h} (hP : OnKeys P) (h1 : ∀ pre, P (h ++ pre) (.createOAuthToken info false))
    (h2 : ∀ code at_ pre, ⟨.createAuthorizationCode, some code⟩ ∈ pre →
      P (h ++ pre) (.createAuthSession info (req.toSession code policy.authSessionExpiresIn at_))) :
    AllH P h (complete policy lib r rh info req) := by
  have hft : ∀ {f k pre}, AllH P (h ++ pre) (frontToken info f k) := by
    intro f k pre
    unfold frontToken
    split
    · refine allH_bind (allH_ask (h1 pre)) fun x _ _ => ?_
      rcases x with ⟨_ | _, _ | _⟩ <;> trivial
    · trivial
  have hfail : ∀ {h}, AllH P h (completeFail lib r rh req) := allH_quiet hP quiet_completeFail
  have hcb : ∀ {h m}, AllH P h (completeCallbackFail lib r rh req m) := allH_quiet hP quiet_completeCallbackFail
  unfold complete
  split
  · trivial
  · split
    · unfold completeCode
      refine allH_ask_bind (hP _ _ rfl) fun x => ?_
      cases x with
      | none => exact hcb
      | some c =>
        refine allH_ask_bind (hP _ _ rfl) fun x => ?_
        cases x with
        | none => exact hcb
        | some a =>
          refine allH_ask_bind ?_ fun x => ?_
          · rw [List.append_assoc]; exact h2 c a _ (by simp)
          cases x with
          | some e => exact hfail
          | none => exact allH_quiet hP (allQ_bind' quiet_success fun _ => allQ_pure)
    · unfold completeImplicit
      refine allH_ask_bind (hP _ _ rfl) fun x => ?_
      rcases x with ⟨clnt, _ | e⟩
      · refine allH_bind hft fun x _ _ => ?_
        cases x with
        | none => exact hfail
        | some p =>
          refine allH_ask_bind (hP _ _ rfl) fun x => ?_
          cases x with
          | none => exact hcb
          | some a =>
            refine allH_bind (allH_quiet hP quiet_frontIdToken) fun x _ _ => ?_
            cases x with
            | none => exact hfail
            | some p => exact allH_quiet hP (allQ_bind' quiet_success fun _ => allQ_pure)
      · exact hfail
    · unfold completeHybrid
      refine allH_ask_bind (hP _ _ rfl) fun x => ?_
      cases x with
      | none => exact hcb
      | some c =>
        refine allH_ask_bind (hP _ _ rfl) fun x => ?_
        cases x with
        | none => exact hcb
        | some a =>
          refine allH_ask_bind ?_ fun x => ?_
          · rw [List.append_assoc]; exact h2 c a _ (by simp)
          cases x with
          | some e => exact hfail
          | none =>
            refine allH_ask_bind (hP _ _ rfl) fun x => ?_
            rcases x with ⟨clnt, _ | e⟩
            · refine allH_bind ?_ fun x _ _ => ?_
              · simp only [List.append_assoc]; exact hft
              cases x with
              | none => exact hfail
              | some p =>
                refine allH_bind (allH_quiet hP quiet_frontIdToken) fun x _ _ => ?_
                cases x with
                | none => exact hfail
                | some p => exact allH_quiet hP (allQ_bind' quiet_success fun _ => allQ_pure)
            · exact hfail
    · trivial

/-- The key calls made while completing the request `req` for the authorization `info`. -/
inductive CompleteKey (policy : Policy) (req : Request) (info : Option AuthInfo) (pre : List Event) : Query → Prop
  | token : CompleteKey policy req info pre (.createOAuthToken info false)
  | session (code at_) : ⟨.createAuthorizationCode, some code⟩ ∈ pre →
      CompleteKey policy req info pre (.createAuthSession info (req.toSession code policy.authSessionExpiresIn at_))

theorem complete_key {rh info req} {pre post : List Event} {e : Event}
    (h : Steps (complete policy lib r rh info req) (pre ++ e :: post)) (hk : e.q.isKey = true) :
    CompleteKey policy req info pre e.q := by
  have := allH_complete (policy := policy) (lib := lib) (r := r) (rh := rh) (info := info) (req := req) (h := [])
    (P := fun pre q => q.isKey = true → CompleteKey policy req info pre q)
    (fun _ _ h h' => by rw [h] at h'; cases h') (fun _ _ => .token) (fun code at_ pre hm _ => .session code at_ (by simpa using hm))
  exact allH_steps this h hk

/-- The key calls of `CompleteRequest`. -/
inductive ContinueKey (policy : Policy) (req : Request) (uid : Int64) (pre : List Event) : Query → Prop
  | record : ContinueKey policy req uid pre (.createOrUpdateAuthInfo uid req.clientId req.scope)
  | complete (info q) : ⟨.createOrUpdateAuthInfo uid req.clientId req.scope, (info, none)⟩ ∈ pre →
      CompleteKey policy req info pre q → ContinueKey policy req uid pre q

theorem completeKey_mono {req info q} {pre pre' : List Event} (h : CompleteKey policy req info pre q)
    (hs : ∀ e ∈ pre, e ∈ pre') : CompleteKey policy req info pre' q := by
  cases h with
  | token => exact .token
  | session code at_ hm => exact .session code at_ (hs _ hm)

theorem completeRequest_key {pre post : List Event} {e : Event}
    (h : Steps (completeRequest policy lib r) (pre ++ e :: post)) (hk : e.q.isKey = true) :
    ∃ req uid, ⟨.continue_, some (some req)⟩ ∈ pre ∧ ⟨.getLoginUserId, some uid⟩ ∈ pre ∧
      ContinueKey policy req uid pre e.q := by
  let P : List Event → Query → Prop := fun pre q => q.isKey = true →
    ∃ req uid, ⟨.continue_, some (some req)⟩ ∈ pre ∧ ⟨.getLoginUserId, some uid⟩ ∈ pre ∧ ContinueKey policy req uid pre q
  have hP : OnKeys P := fun _ _ h h' => by rw [h] at h'; cases h'
  have : AllH P [] (completeRequest policy lib r) := by
    unfold completeRequest
    refine allH_ask_bind (hP _ _ rfl) fun x => ?_
    rcases x with _ | _ | req
    · exact allH_quiet hP (allQ_bind' (allQ_ask rfl) fun _ => allQ_pure)
    · trivial
    · refine allH_ask_bind (hP _ _ rfl) fun x => ?_
      cases x with
      | none => exact allH_quiet hP quiet_completeCallbackFail
      | some uid =>
        refine allH_ask_bind (fun _ => ⟨req, uid, by simp, by simp, .record⟩) fun x => ?_
        rcases x with ⟨info, _ | e⟩
        · refine allH_complete hP (fun pre _ => ⟨req, uid, by simp, by simp, .complete info _ (by simp) .token⟩) ?_
          exact fun code at_ pre hm _ => ⟨req, uid, by simp, by simp, .complete info _ (by simp)
            (.session code at_ (by simp [hm]))⟩
        · exact allH_quiet hP quiet_completeFail
  exact allH_steps this h hk

theorem split_right {α : Type} {a b pre post : List α} {e : α} (h : a ++ b = pre ++ e :: post) (he : e ∉ a) :
    ∃ mid, pre = a ++ mid ∧ b = mid ++ e :: post := by
  induction a generalizing pre with
  | nil => exact ⟨pre, rfl, h⟩
  | cons x a ih =>
    cases pre with
    | nil =>
      simp only [List.cons_append, List.nil_append, List.cons.injEq] at h
      exact absurd (by simp [h.1]) he
    | cons y pre =>
      simp only [List.cons_append, List.cons.injEq] at h
      obtain ⟨rfl, h⟩ := h
      obtain ⟨mid, rfl, hb⟩ := ih h (fun hm => he (by simp [hm]))
      exact ⟨mid, rfl, hb⟩

theorem inert_notKey {t : List Event} {e : Event} (h : Inert t) (he : e.q.isKey = true) : e ∉ t := by
  intro hm
  have := h e hm
  cases e with | mk q x => cases q <;> first | (cases he; done) | simp [Query.isInert] at this

theorem rejected_notKey {mode uri state types t o} {e : Event} (h : Rejected lib mode uri state types t o)
    (he : e.q.isKey = true) : e ∉ t := by
  obtain ⟨t1, t2, rfl, hi, h⟩ := h
  intro hm
  rcases List.mem_append.1 hm with hm | hm
  · exact inert_notKey hi he hm
  · rcases h with ⟨_, rfl, _⟩ | ⟨_, _, _, _, resp, hs, _⟩
    · cases hm
    · rcases hs with rfl | ⟨m, l, rfl⟩
      · obtain rfl : e = wrote resp := by simpa using hm
        cases he
      · rcases List.mem_cons.1 hm with rfl | hm
        · cases he
        · obtain rfl : e = wrote resp := by simpa using hm
          cases he

/-- The key calls of `HandleRequest`: only while it completes a request it has checked, for the login user
and an authorization found for that user and the client of the request. -/
theorem handleRequest_key {pre post : List Event} {e : Event}
    (h : Steps (handleRequest policy lib r) (pre ++ e :: post)) (hk : e.q.isKey = true) :
    ∃ clnt f req uid info, FoundClient r clnt pre ∧ clnt.canUseRedirectURI (r.formValue b!"redirect_uri") = true ∧
      Built policy r clnt f req ∧ ⟨.getLoginUserId, some uid⟩ ∈ pre ∧
      ⟨.findAuthInfoByUserIdAndClientId uid req.clientId, (some info, none)⟩ ∈ pre ∧
      CompleteKey policy req (some info) pre e.q := by
  obtain ⟨t', o, hr⟩ := steps_complete h
  rw [List.append_assoc, List.cons_append] at hr
  generalize hg : pre ++ e :: (post ++ t') = g at hr
  have hmem : e ∈ g := by rw [← hg]; simp
  rcases handleRequest_runs hr with hn | ⟨clnt, t1, t2, rfl, h1, mode, h2⟩ | ⟨clnt, t1, t2, t3, f, req, rfl, h1, h2, hb, h3⟩
  · rcases hn with ⟨t1, n, rfl, hi, _⟩ | ⟨_, n, rfl⟩
    · rcases List.mem_append.1 hmem with he | he
      · exact absurd he (inert_notKey hi hk)
      · obtain rfl : e = ⟨.showErrorScreen n, ()⟩ := by simpa using he
        cases hk
    · obtain rfl : e = _ := List.mem_singleton.1 hmem
      cases hk
  · obtain ⟨_, _, hi⟩ := identified_found h1
    rcases List.mem_append.1 hmem with he | he
    · exact absurd he (inert_notKey hi hk)
    · exact absurd he (rejected_notKey h2 hk)
  · obtain ⟨hf, ha, hi⟩ := identified_found h1
    have hi12 : Inert (t1 ++ t2) := inert_append.2 ⟨hi, h2⟩
    have hf12 : FoundClient r clnt (t1 ++ t2) := foundClient_mono hf fun e he => by simp [he]
    rw [← List.append_assoc] at hg hmem
    generalize t1 ++ t2 = t0 at hi12 hf12 hg hmem
    have hm3 : e ∈ t3 := (List.mem_append.1 hmem).resolve_left (inert_notKey hi12 hk)
    rcases h3 with ⟨p, t', rfl, hr, _, hp⟩ | ⟨hm, rfl, t', b, rfl, hi', hw⟩ | ⟨hm, rfl, t', rfl, hi', hpass⟩ |
      ⟨t4, t5, info, rfl, hi', hc, hpath, hcomp, r', hrun⟩
    · have hm := (List.mem_append.1 hm3).resolve_right (rejected_notKey hr hk)
      rcases hp with rfl | ⟨_, t6, hi6, rfl⟩ | ⟨_, t6, hi6, hpass, rfl⟩
      · cases hm
      · rcases List.mem_append.1 hm with hm | hm
        · exact absurd hm (inert_notKey hi6 hk)
        · obtain rfl := List.mem_singleton.1 hm; cases hk
      · rcases List.mem_append.1 hm with hm | hm
        · exact absurd hm (inert_notKey hi6 hk)
        · obtain rfl := List.mem_singleton.1 hm; cases hk
    · rcases List.mem_append.1 hm3 with hm | hm
      · exact absurd hm (inert_notKey hi' hk)
      · obtain rfl := List.mem_singleton.1 hm; cases hk
    · rcases List.mem_append.1 hm3 with hm | hm
      · exact absurd hm (inert_notKey hi' hk)
      · obtain rfl := List.mem_singleton.1 hm; cases hk
    · rw [← List.append_assoc] at hg
      have hi4 : Inert (t0 ++ t4) := inert_append.2 ⟨hi12, hi'⟩
      obtain ⟨mid, rfl, rfl⟩ := split_right hg.symm (inert_notKey hi4 hk)
      obtain ⟨uid, now, hu, hfi, _⟩ := hc
      refine ⟨clnt, f, req, uid, info, foundClient_mono hf12 fun e he => by simp [he], ha, hb, by simp [hu], by simp [hfi], ?_⟩
      exact completeKey_mono (complete_key (runs_steps hrun) hk) fun e he => by simp [he]

theorem quiet_cancelRequest : AllQ (fun q => q.isKey = false ∧ q.isPrompt = false) (cancelRequest lib r) := by
  refine allQ_of_runs fun t o h => ?_
  intro e he
  cases cancelRequest_runs h with
  | noRequest l => simp at he; rcases he with rfl | rfl <;> exact ⟨rfl, rfl⟩
  | nilRequest => simp at he; subst he; exact ⟨rfl, rfl⟩
  | denied req t o hs =>
    rcases List.mem_cons.1 he with rfl | he
    · exact ⟨rfl, rfl⟩
    · rcases hs with ⟨_, rfl, _⟩ | ⟨_, a, resp, rfl, hr, _⟩
      · cases he
      · rcases List.mem_append.1 he with he | he
        · obtain ⟨m, l, rfl⟩ := hr e he
          exact ⟨rfl, rfl⟩
        · obtain rfl := List.mem_singleton.1 he; exact ⟨rfl, rfl⟩

end Goidc
