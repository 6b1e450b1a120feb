import Verif.Lemmas.AuthFacts
import Verif.Lemmas.Contents

/-! # Runs of `CompleteRequest` and `CancelRequest` -/

namespace Goidc

open Spec AuthzEndpoint

variable {policy : Policy} {lib : Lib} {r : Req} {t pre : List Event} {resp : HttpResp} {o : Outcome Bool}

/-- One error response to `req`'s redirect URI, or a panic because the URI does not parse. -/
def SendsError (lib : Lib) (rh : GoStr) (req : Request) (typ : GoStr) (b : Bool) (t : List Event)
    (o : Outcome Bool) : Prop :=
  (o = .panic ∧ t = [] ∧ lib.urlParseOk req.redirectURI = false ∧ channel rh ≠ .form) ∨
  (o = .ok b ∧ ∃ after resp, t = after ++ [wrote resp] ∧ Ranges after ∧
    Delivers resp req.redirectURI (errorResponse typ [] req.state) (channel rh))

theorem error_sends {rh : GoStr} {req : Request} {typ : GoStr} {b : Bool}
    (h : Runs ((AuthResponse.error lib r rh req.redirectURI typ [] req.state).bind fun _ => .ret b) t o) :
    SendsError lib rh req typ b t o := by
  unfold AuthResponse.error at h
  rw [errorParams_eq] at h
  rcases runs_bind.1 h with ⟨_, t1, t2, rfl, h1, rfl, rfl⟩ | ⟨h1, rfl⟩
  · rcases success_runs h1 with ⟨h', _⟩ | ⟨_, _, resp, hs, hd⟩
    · cases h'
    · obtain ⟨p, rfl, _, hp⟩ := sentTrace_last hs
      exact .inr ⟨rfl, p, resp, by simp, hp, hd⟩
  · rcases success_runs h1 with ⟨_, rfl, h2, h3⟩ | ⟨h', _⟩
    · exact .inl ⟨rfl, rfl, h2, h3⟩
    · cases h'

/-- How `CancelRequest` ends. -/
inductive CancelEnd (lib : Lib) : List Event → Outcome Bool → Prop
  | noRequest (l : LogLine) : CancelEnd lib [⟨.continue_, none⟩, ⟨.log l, ()⟩] (.ok false)
  | nilRequest : CancelEnd lib [⟨.continue_, some none⟩] .panic
  | denied (req : Request) (t : List Event) (o : Outcome Bool) :
      SendsError lib req.responseMode req b!"access_denied" true t o →
      CancelEnd lib (⟨.continue_, some (some req)⟩ :: t) o

theorem cancelRequest_runs (h : Runs (cancelRequest lib r) t o) : CancelEnd lib t o := by
  unfold cancelRequest at h
  replace h := runs_bind_ask.1 h
  obtain ⟨x, t1, rfl, h⟩ := h
  rcases x with _ | _ | req
  · dsimp only at h
    unfold plog logAt at h
    replace h := runs_bind_ask.1 h
    obtain ⟨_, t2, rfl, rfl, rfl⟩ := h
    exact .noRequest _
  · obtain ⟨rfl, rfl⟩ := h
    exact .nilRequest
  · exact .denied req t1 o (error_sends h)

/-- Codes, sessions and tokens are created for the authorization `info` only. -/
def Own (info : Option AuthInfo) (q : Query) : Prop := ∀ i, grantOwner q = some i → i = info

theorem own_trivial {info : Option AuthInfo} {q : Query} (h : grantOwner q = none) : Own info q := by
  intro i hi
  rw [h] at hi
  cases hi

theorem own_redirectTo {info ty uri ps} : AllQ (Own info) (AuthResponse.redirectTo lib r ty uri ps) := by
  unfold AuthResponse.redirectTo AuthResponse.connector
  refine allQ_bind' ?_ fun _ => allQ_ask (own_trivial rfl)
  split
  · trivial
  · split <;> trivial

theorem own_success {info mode uri ps} : AllQ (Own info) (AuthResponse.success lib r mode uri ps) := by
  unfold AuthResponse.success
  split
  · exact own_redirectTo
  · split
    · exact own_redirectTo
    · split
      · exact allQ_bind' (allQ_ask (own_trivial rfl)) fun _ => allQ_ask (own_trivial rfl)
      · exact own_redirectTo

theorem own_completeFail {info rh req} : AllQ (Own info) (completeFail lib r rh req) :=
  allQ_bind' own_success fun _ => allQ_pure

theorem own_completeCallbackFail {info rh req m} : AllQ (Own info) (completeCallbackFail lib r rh req m) :=
  allQ_bind' (allQ_ask (own_trivial rfl)) fun _ => own_completeFail

theorem own_complete {rh info req} : AllQ (Own info) (complete policy lib r rh info req) := by
  have hs : ∀ {s}, Own info (.createAuthSession info s) := by
    intro s i hi; cases hi; rfl
  have ht : ∀ {b}, Own info (.createOAuthToken info b) := by
    intro s i hi; cases hi; rfl
  have hft : ∀ {f k}, AllQ (Own info) (frontToken info f k) := by
    intro f k
    unfold frontToken
    split
    · refine allQ_bind' (allQ_ask ht) fun x => ?_
      rcases x with ⟨_ | _, _ | _⟩ <;> trivial
    · trivial
  have hid : ∀ {clnt f} {at_ : Int64} {atk code}, AllQ (Own info) (frontIdToken policy lib clnt info f req at_ atk code) := by
    intro clnt f at_ atk code
    unfold frontIdToken
    split
    · split
      · trivial
      · refine allQ_bind' (allQ_ask (own_trivial rfl)) fun _ => ?_
        split
        · trivial
        · refine allQ_bind' (allQ_ask (own_trivial rfl)) fun _ => ?_
          dsimp only
          split <;> trivial
    · trivial
  unfold complete
  split
  · trivial
  · split
    · unfold completeCode
      refine allQ_bind' (allQ_ask (own_trivial rfl)) fun x => ?_
      cases x with
      | none => exact own_completeCallbackFail
      | some c =>
        refine allQ_bind' (allQ_ask (own_trivial rfl)) fun x => ?_
        cases x with
        | none => exact own_completeCallbackFail
        | some a =>
          refine allQ_bind' (allQ_ask hs) fun x => ?_
          cases x with
          | some e => exact own_completeFail
          | none => exact allQ_bind' own_success fun _ => allQ_pure
    · unfold completeImplicit
      refine allQ_bind' (allQ_ask (own_trivial rfl)) fun x => ?_
      rcases x with ⟨clnt, _ | e⟩
      · refine allQ_bind' hft fun x => ?_
        cases x with
        | none => exact own_completeFail
        | some p =>
          refine allQ_bind' (allQ_ask (own_trivial rfl)) fun x => ?_
          cases x with
          | none => exact own_completeCallbackFail
          | some a =>
            refine allQ_bind' hid fun x => ?_
            cases x with
            | none => exact own_completeFail
            | some p => exact allQ_bind' own_success fun _ => allQ_pure
      · exact own_completeFail
    · unfold completeHybrid
      refine allQ_bind' (allQ_ask (own_trivial rfl)) fun x => ?_
      cases x with
      | none => exact own_completeCallbackFail
      | some c =>
        refine allQ_bind' (allQ_ask (own_trivial rfl)) fun x => ?_
        cases x with
        | none => exact own_completeCallbackFail
        | some a =>
          refine allQ_bind' (allQ_ask hs) fun x => ?_
          cases x with
          | some e => exact own_completeFail
          | none =>
            refine allQ_bind' (allQ_ask (own_trivial rfl)) fun x => ?_
            rcases x with ⟨clnt, _ | e⟩
            · refine allQ_bind' hft fun x => ?_
              cases x with
              | none => exact own_completeFail
              | some p =>
                refine allQ_bind' hid fun x => ?_
                cases x with
                | none => exact own_completeFail
                | some p => exact allQ_bind' own_success fun _ => allQ_pure
            · exact own_completeFail
    · trivial

/-- How `CompleteRequest` ends. -/
inductive ContinueEnd (policy : Policy) (lib : Lib) : List Event → Outcome Bool → Prop
  | noRequest (l : LogLine) : ContinueEnd policy lib [⟨.continue_, none⟩, ⟨.log l, ()⟩] (.ok false)
  | nilRequest : ContinueEnd policy lib [⟨.continue_, some none⟩] .panic
  | noUser (req : Request) (l : LogLine) (t : List Event) (o : Outcome Bool) :
      SendsError lib req.responseMode req b!"server_error" false t o →
      ContinueEnd policy lib (⟨.continue_, some (some req)⟩ :: ⟨.getLoginUserId, none⟩ :: ⟨.log l, ()⟩ :: t) o
  | noAuth (req : Request) (uid : Int64) (x : Option AuthInfo) (e : ErrType) (t : List Event) (o : Outcome Bool) :
      SendsError lib req.responseMode req b!"server_error" false t o →
      ContinueEnd policy lib (⟨.continue_, some (some req)⟩ :: ⟨.getLoginUserId, some uid⟩ ::
        ⟨.createOrUpdateAuthInfo uid req.clientId req.scope, (x, some e)⟩ :: t) o
  | completed (req : Request) (uid : Int64) (info : Option AuthInfo) (t : List Event) (o : Outcome Bool) :
      Completion policy lib req.responseMode info req t o → (∀ e ∈ t, Own info e.q) →
      ContinueEnd policy lib (⟨.continue_, some (some req)⟩ :: ⟨.getLoginUserId, some uid⟩ ::
        ⟨.createOrUpdateAuthInfo uid req.clientId req.scope, (info, none)⟩ :: t) o

theorem completeRequest_runs (h : Runs (completeRequest policy lib r) t o) : ContinueEnd policy lib t o := by
  unfold completeRequest at h
  replace h := runs_bind_ask.1 h
  obtain ⟨x, t1, rfl, h⟩ := h
  rcases x with _ | _ | req
  · dsimp only at h
    unfold plog logAt at h
    replace h := runs_bind_ask.1 h
    obtain ⟨_, t2, rfl, rfl, rfl⟩ := h
    exact .noRequest _
  · obtain ⟨rfl, rfl⟩ := h
    exact .nilRequest
  · dsimp only at h
    replace h := runs_bind_ask.1 h
    obtain ⟨x, t2, rfl, h⟩ := h
    cases x with
    | none =>
      dsimp only at h
      unfold completeCallbackFail plog logAt at h
      replace h := runs_bind_ask.1 h
      obtain ⟨_, t3, rfl, h⟩ := h
      exact .noUser req _ t3 o (error_sends h)
    | some uid =>
      dsimp only at h
      replace h := runs_bind_ask.1 h
      obtain ⟨x, t3, rfl, h⟩ := h
      rcases x with ⟨info, _ | e⟩
      · exact .completed req uid info t3 o (complete_runs h) (allQ_runs own_complete h)
      · exact .noAuth req uid info e t3 o (error_sends h)

theorem sendsError_write {rh req typ b} (h : SendsError lib rh req typ b t o) :
    NoWrite t ∨ ∃ pre resp, t = pre ++ [wrote resp] ∧ NoWrite pre := by
  rcases h with ⟨_, rfl, _⟩ | ⟨_, a, resp, rfl, hr, _⟩
  · exact .inl noWrite_nil
  · exact .inr ⟨a, resp, rfl, ranges_noWrite hr⟩

theorem completion_write {rh info req} (h : Completion policy lib rh info req t o) :
    NoWrite t ∨ ∃ pre resp, t = pre ++ [wrote resp] ∧ NoWrite pre := by
  rcases h with ⟨_, hw, _⟩ | ⟨_, rfl, _⟩ | ⟨_, t1, t2, resp, rfl, hw, hs, _⟩ | ⟨_, f, t1, t2, ps, resp, _, rfl, hw, _, hs, _⟩
  · exact .inl (work_noWrite hw)
  · exact .inl noWrite_nil
  all_goals
    obtain ⟨p, rfl, hp, _⟩ := sentTrace_last hs
    exact .inr ⟨t1 ++ p, resp, by simp, noWrite_append.2 ⟨work_noWrite hw, hp⟩⟩

theorem write_cons {e : Event} (he : e.q.isWrite = false)
    (h : NoWrite t ∨ ∃ pre resp, t = pre ++ [wrote resp] ∧ NoWrite pre) :
    NoWrite (e :: t) ∨ ∃ pre resp, e :: t = pre ++ [wrote resp] ∧ NoWrite pre := by
  rcases h with h | ⟨pre, resp, rfl, h⟩
  · exact .inl (noWrite_cons.2 ⟨he, h⟩)
  · exact .inr ⟨e :: pre, resp, by simp, noWrite_cons.2 ⟨he, h⟩⟩

theorem writeLast_completeRequest : WriteLast (completeRequest policy lib r) := by
  intro t o h
  cases completeRequest_runs h with
  | noRequest l => exact .inl (by simp [NoWrite, Query.isWrite])
  | nilRequest => exact .inl (by simp [NoWrite, Query.isWrite])
  | noUser req l t o hs => exact write_cons rfl (write_cons rfl (write_cons rfl (sendsError_write hs)))
  | noAuth req uid x e t o hs => exact write_cons rfl (write_cons rfl (write_cons rfl (sendsError_write hs)))
  | completed req uid info t o hs hown => exact write_cons rfl (write_cons rfl (write_cons rfl (completion_write hs)))

theorem writeLast_cancelRequest : WriteLast (cancelRequest lib r) := by
  intro t o h
  cases cancelRequest_runs h with
  | noRequest l => exact .inl (by simp [NoWrite, Query.isWrite])
  | nilRequest => exact .inl (by simp [NoWrite, Query.isWrite])
  | denied req t o hs => exact write_cons rfl (sendsError_write hs)

/-- What `CompleteRequest` did when it answered. -/
inductive ContinueWrote (policy : Policy) (lib : Lib) (req : Request) : List Event → HttpResp → Bool → Prop
  | error (pre : List Event) (resp : HttpResp) :
      Delivers resp req.redirectURI (errorResponse b!"server_error" [] req.state) (channel req.responseMode) →
      ContinueWrote policy lib req pre resp false
  | success (uid : Int64) (info : Option AuthInfo) (f : Flow) (work after : List Event) (ps : Params) (resp : HttpResp) :
      req.flow = some f → Work work → CompleteParts policy lib info req f work ps → Ranges after →
      Delivers resp req.redirectURI ps (channel req.responseMode) →
      ContinueWrote policy lib req (⟨.continue_, some (some req)⟩ :: ⟨.getLoginUserId, some uid⟩ ::
        ⟨.createOrUpdateAuthInfo uid req.clientId req.scope, (info, none)⟩ :: (work ++ after)) resp true

theorem snoc_inj {a b : List Event} {x y : HttpResp} (h : a ++ [wrote x] = b ++ [wrote y]) : a = b ∧ x = y := by
  obtain ⟨h1, h2⟩ := List.append_inj' h rfl
  simp only [wrote, List.cons.injEq, Event.mk.injEq, Query.write.injEq, and_true] at h2
  exact ⟨h1, h2.1⟩

theorem ranges_noWrote (h : Ranges t) : wrote resp ∉ t := by
  intro hm
  obtain ⟨m, l, he⟩ := h _ hm
  cases he

theorem completeRequest_wrote (h : Steps (completeRequest policy lib r) (pre ++ [wrote resp])) :
    ∃ req b, ⟨.continue_, some (some req)⟩ ∈ pre ∧ ContinueWrote policy lib req pre resp b ∧
      Runs (completeRequest policy lib r) (pre ++ [wrote resp]) (.ok b) := by
  obtain ⟨hn, o, hr⟩ := writeLast_complete writeLast_completeRequest h
  have hc := completeRequest_runs hr
  suffices hx : ∃ req b, ⟨.continue_, some (some req)⟩ ∈ pre ∧ ContinueWrote policy lib req pre resp b ∧ o = .ok b by
    obtain ⟨req, b, h1, h2, rfl⟩ := hx
    exact ⟨req, b, h1, h2, hr⟩
  generalize he : pre ++ [wrote resp] = t at hc
  have hmem : wrote resp ∈ t := he ▸ by simp
  have hsnd : ∀ {req t' b} {x y z : Event}, x.q.isWrite = false → y.q.isWrite = false → z.q.isWrite = false →
      wrote resp ∈ x :: y :: z :: t' → SendsError lib req.responseMode req b!"server_error" b t' o →
      pre ++ [wrote resp] = x :: y :: z :: t' →
      x ∈ pre ∧ o = .ok b ∧ Delivers resp req.redirectURI (errorResponse b!"server_error" [] req.state) (channel req.responseMode) := by
    intro req t' b x y z hx hy hz hm hs he
    rcases hs with ⟨_, rfl, _⟩ | ⟨ho, a, resp', rfl, hr, hd⟩
    · simp only [List.mem_cons, List.not_mem_nil, or_false] at hm
      rcases hm with rfl | rfl | rfl
      · cases hx
      · cases hy
      · cases hz
    · rw [show x :: y :: z :: (a ++ [wrote resp']) = (x :: y :: z :: a) ++ [wrote resp'] from rfl] at he
      obtain ⟨rfl, rfl⟩ := snoc_inj he
      exact ⟨by simp, ho, hd⟩
  cases hc with
  | noRequest l => simp at hmem
  | nilRequest => simp at hmem
  | noUser req l t o hs =>
    obtain ⟨h1, rfl, h3⟩ := hsnd rfl rfl rfl hmem hs he
    exact ⟨req, false, h1, .error _ _ h3, rfl⟩
  | noAuth req uid x e t o hs =>
    obtain ⟨h1, rfl, h3⟩ := hsnd rfl rfl rfl hmem hs he
    exact ⟨req, false, h1, .error _ _ h3, rfl⟩
  | completed req uid info t o hs hown =>
    have hnw : ∀ {t : List Event}, NoWrite t → ¬ wrote resp ∈ t := fun hn hm => by
      have := hn _ hm
      simp [Query.isWrite] at this
    have hm' : wrote resp ∈ t := by simpa using hmem
    rcases hs with ⟨_, hw, _⟩ | ⟨_, rfl, _⟩ | ⟨rfl, t1, t2, resp', rfl, hw, hs, hd⟩ |
      ⟨rfl, f, t1, t2, ps, resp', hf, rfl, hw, hparts, hs, hd⟩
    · exact absurd hm' (hnw (work_noWrite hw))
    · simp at hm'
    · obtain ⟨p, rfl, hp, hp2⟩ := sentTrace_last hs
      rw [show ∀ a b c : Event, a :: b :: c :: (t1 ++ (p ++ [wrote resp'])) = (a :: b :: c :: (t1 ++ p)) ++ [wrote resp'] by
        simp] at he
      obtain ⟨rfl, rfl⟩ := snoc_inj he
      exact ⟨req, false, by simp, .error _ _ hd, rfl⟩
    · obtain ⟨p, rfl, hp, hp2⟩ := sentTrace_last hs
      rw [show ∀ a b c : Event, a :: b :: c :: (t1 ++ (p ++ [wrote resp'])) = (a :: b :: c :: (t1 ++ p)) ++ [wrote resp'] by
        simp] at he
      obtain ⟨rfl, rfl⟩ := snoc_inj he
      exact ⟨req, true, by simp, .success uid info f t1 p ps resp hf hw hparts hp2 hd, rfl⟩

end Goidc
