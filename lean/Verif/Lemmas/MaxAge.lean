import Verif.Lemmas.AuthFacts

/-! # Requests with a bad `max_age` -/

namespace Goidc

open Spec AuthzEndpoint

variable {policy : Policy} {lib : Lib} {r : Req} {t pre : List Event}

/-- With a bad `max_age` the request is refused with `invalid_request`, unless it is refused earlier on
the error screen, or panics. -/
def BadMaxAge (lib : Lib) (r : Req) (t : List Event) (o : Outcome Bool) : Prop :=
  NotIdentified r t o ∨ ∃ clnt t1 t2, t = t1 ++ t2 ∧ Identified r clnt t1 ∧ BuildFailT [b!"invalid_request"] lib r t2 o

theorem ah_handleRequestM_maxAge {ok : Client → Prop} (hcu : ∀ clnt, ok clnt → ∀ f,
      Flow.judgeByResponseType (r.formValue b!"response_type") = some f → clnt.canUseFlow f.type = true)
    (hne : r.formValue b!"max_age" ≠ [])
    (hbad : ∀ a, atoi (r.formValue b!"max_age") = some a → a < policy.minMaxAge ∨ policy.maxMaxAge < a) :
    AH (handleRequestM policy lib r) (fun t _ => ∃ clnt, FoundClient r clnt t ∧ ¬ ok clnt)
      (fun t o => (∃ clnt, FoundClient r clnt t ∧ ¬ ok clnt) ∨ BadMaxAge lib r t o) := by
  unfold handleRequestM
  refine ah_bind (ah_conseq (ah_identify r) (fun _ _ h => h) (fun _ _ h => .inr (.inl h))) ?_
  intro t1 clnt h1
  rcases Classical.em (ok clnt) with ho | ho
  · refine ah_bind (Ok := fun _ _ => False) (ah_conseq (ah_buildRequest_maxAge (hcu clnt ho) hne hbad) (fun _ _ h => h) ?_) ?_
    · intro t2 o h2
      exact .inr (.inr ⟨clnt, t1, t2, rfl, h1, h2⟩)
    · intro _ _ h
      exact h.elim
  · have hf := (identified_found h1).1
    have hk : ∀ t2, FoundClient r clnt (t1 ++ t2) := fun t2 => foundClient_mono hf fun e he => by simp [he]
    exact ⟨fun _ => ⟨clnt, hk _, ho⟩, fun _ => .inl ⟨clnt, hk _, ho⟩, fun _ => .inl ⟨clnt, hk _, ho⟩⟩

theorem handleRequest_maxAge {o} (h : Runs (handleRequest policy lib r) t o)
    (hcu : ∀ clnt f, FoundClient r clnt t → Flow.judgeByResponseType (r.formValue b!"response_type") = some f →
      clnt.canUseFlow f.type = true)
    (hne : r.formValue b!"max_age" ≠ [])
    (hbad : ∀ a, atoi (r.formValue b!"max_age") = some a → a < policy.minMaxAge ∨ policy.maxMaxAge < a) :
    BadMaxAge lib r t o := by
  have H := ah_handleRequestM_maxAge (lib := lib) (ok := fun clnt => ∀ f,
      Flow.judgeByResponseType (r.formValue b!"response_type") = some f → clnt.canUseFlow f.type = true)
    (fun _ h => h) hne hbad
  have hno : ¬ ∃ clnt, FoundClient r clnt t ∧ ¬ ∀ f,
      Flow.judgeByResponseType (r.formValue b!"response_type") = some f → clnt.canUseFlow f.type = true := by
    rintro ⟨clnt, h1, h2⟩
    exact h2 fun f hf => hcu clnt f h1 hf
  unfold handleRequest at h
  rw [Prog.bind_eq] at h
  rcases runs_bind.1 h with ⟨x, t1, t2, rfl, h1, h2⟩ | ⟨h1, rfl⟩
  · cases x with
    | ok b =>
      obtain ⟨rfl, rfl⟩ := h2
      rw [List.append_nil] at hno
      exact absurd (H.ok h1) hno
    | error b =>
      obtain ⟨rfl, rfl⟩ := h2
      rw [List.append_nil] at hno ⊢
      exact (H.err h1).resolve_left hno
  · exact (H.panic h1).resolve_left hno

end Goidc
