import Verif.Lemmas.AuthFacts

/-! # What precedes a login or consent screen -/

namespace Goidc

open Spec AuthzEndpoint

variable {policy : Policy} {lib : Lib} {r : Req} {t pre : List Event}

/-- Showing the login or the consent screen. -/
def Query.isPrompt : Query → Bool
  | .showLoginScreen _ | .showConsentScreen _ _ => true
  | _ => false

/-- The only element with a property has only one position. -/
theorem only_position {α : Type} {P : α → Prop} {l1 l2 m1 m2 : List α} {a b : α} (h : l1 ++ a :: l2 = m1 ++ b :: m2)
    (ha : P a) (hm1 : ∀ x ∈ m1, ¬ P x) (hm2 : ∀ x ∈ m2, ¬ P x) : l1 = m1 ∧ a = b ∧ l2 = m2 := by
  induction l1 generalizing m1 with
  | nil =>
    cases m1 with
    | nil => simp at h; exact ⟨rfl, h.1, h.2⟩
    | cons x m1 =>
      simp only [List.nil_append, List.cons_append, List.cons.injEq] at h
      exact absurd (h.1 ▸ ha) (hm1 x (by simp))
  | cons y l1 ih =>
    cases m1 with
    | nil =>
      simp only [List.nil_append, List.cons_append, List.cons.injEq] at h
      exact absurd ha (hm2 a (by rw [← h.2]; simp))
    | cons x m1 =>
      simp only [List.cons_append, List.cons.injEq] at h
      obtain ⟨rfl, h⟩ := h
      obtain ⟨rfl, h2, h3⟩ := ih h (fun x hx => hm1 x (by simp [hx]))
      exact ⟨rfl, h2, h3⟩

/-- A login or consent screen is about to be shown, after the calls `pre`. -/
structure Shown (policy : Policy) (r : Req) (clnt : Client) (f : Flow) (req : Request) (q : Query)
    (pre : List Event) : Prop where
  found : FoundClient r clnt pre
  accepts : clnt.canUseRedirectURI (r.formValue b!"redirect_uri") = true
  built : Built policy r clnt f req
  may : MayInteract clnt req
  inert : Inert pre
  which : q = .showLoginScreen req ∨ (q = .showConsentScreen clnt req ∧ Passed req pre)

theorem inert_noPrompt {t : List Event} (h : Inert t) : ∀ e ∈ t, ¬ e.q.isPrompt = true := by
  intro e he hp
  have := h e he
  cases e with | mk q r => cases q <;> first | (simp [Query.isPrompt] at hp; done) | simp [Query.isInert] at this

theorem work_noPrompt {t : List Event} (h : Work t) : ∀ e ∈ t, ¬ e.q.isPrompt = true := by
  intro e he hp
  have := h e he
  cases e with | mk q r => cases q <;> first | (simp [Query.isPrompt] at hp; done) | simp [Query.isWork] at this

theorem sentTrace_noPrompt {t : List Event} {resp} (h : SentTrace t resp) : ∀ e ∈ t, ¬ e.q.isPrompt = true := by
  rcases h with rfl | ⟨m, l, rfl⟩ <;> intro e he
  · obtain rfl : e = wrote resp := by simpa using he
    simp [wrote, Query.isPrompt]
  · rcases List.mem_cons.1 he with rfl | he
    · simp [Query.isPrompt]
    · obtain rfl : e = wrote resp := by simpa using he
      simp [wrote, Query.isPrompt]

theorem rejected_noPrompt {mode uri state types o} (h : Rejected lib mode uri state types t o) :
    ∀ e ∈ t, ¬ e.q.isPrompt = true := by
  obtain ⟨t1, t2, rfl, hi, h⟩ := h
  intro e he
  rcases List.mem_append.1 he with he | he
  · exact inert_noPrompt hi e he
  · rcases h with ⟨_, rfl, _⟩ | ⟨_, _, _, _, resp, hs, _⟩
    · simp at he
    · exact sentTrace_noPrompt hs e he

theorem completion_noPrompt {rh info req o} (h : Completion policy lib rh info req t o) :
    ∀ e ∈ t, ¬ e.q.isPrompt = true := by
  rcases h with ⟨_, hw, _⟩ | ⟨_, rfl, _⟩ | ⟨_, t1, t2, resp, rfl, hw, hs, _⟩ | ⟨_, f, t1, t2, ps, resp, _, rfl, hw, _, hs, _⟩
  · exact work_noPrompt hw
  · simp
  · intro e he
    rcases List.mem_append.1 he with he | he
    · exact work_noPrompt hw e he
    · exact sentTrace_noPrompt hs e he
  · intro e he
    rcases List.mem_append.1 he with he | he
    · exact work_noPrompt hw e he
    · exact sentTrace_noPrompt hs e he

/-- At most one screen is shown in a run, and then after the right checks. -/
theorem handleRequest_screens {o} (h : Runs (handleRequest policy lib r) t o) :
    (∀ e ∈ t, ¬ e.q.isPrompt = true) ∨
    ∃ pre q x post clnt f req, t = pre ++ ⟨q, x⟩ :: post ∧ q.isPrompt = true ∧
      (∀ e ∈ post, ¬ e.q.isPrompt = true) ∧ Shown policy r clnt f req q pre := by
  rcases handleRequest_runs h with hn | ⟨clnt, t1, t2, rfl, h1, mode, h2⟩ | ⟨clnt, t1, t2, t3, f, req, rfl, h1, h2, hb, h3⟩
  · rcases hn with ⟨t1, n, rfl, hi, _⟩ | ⟨_, n, rfl⟩
    · left
      intro e he
      rcases List.mem_append.1 he with he | he
      · exact inert_noPrompt hi e he
      · obtain rfl : e = ⟨.showErrorScreen n, ()⟩ := by simpa using he
        simp [Query.isPrompt]
    · left; intro e he
      obtain rfl : e = _ := List.mem_singleton.1 he
      simp [Query.isPrompt]
  · left
    obtain ⟨_, _, hi⟩ := identified_found h1
    intro e he
    rcases List.mem_append.1 he with he | he
    · exact inert_noPrompt hi e he
    · exact rejected_noPrompt h2 e he
  · obtain ⟨hf, ha, hi⟩ := identified_found h1
    have hi12 : Inert (t1 ++ t2) := inert_append.2 ⟨hi, h2⟩
    have hf12 : FoundClient r clnt (t1 ++ t2) := foundClient_mono hf fun e he => by simp [he]
    rw [← List.append_assoc]
    generalize t1 ++ t2 = t0 at hi12 hf12
    have hsub : ∀ {t4 : List Event} {Q : Event → Prop}, (∀ e ∈ t4, Q e) → (∀ e ∈ t0, Q e) → ∀ e ∈ t0 ++ t4, Q e := by
      intro t4 Q h1 h2 e he
      rcases List.mem_append.1 he with he | he
      · exact h2 e he
      · exact h1 e he
    rcases h3 with ⟨p, t', rfl, hr, _, hp⟩ | ⟨hm, rfl, t', b, rfl, hi', hw⟩ | ⟨hm, rfl, t', rfl, hi', hpass⟩ |
      ⟨t4, t5, info, rfl, hi', hc, hpath, hcomp, _⟩
    · have hnp := rejected_noPrompt hr
      rcases hp with rfl | ⟨hm, t6, hi6, rfl⟩ | ⟨hm, t6, hi6, hpass, rfl⟩
      · left; exact hsub (by simpa using hnp) (inert_noPrompt hi12)
      · right
        exact ⟨t0 ++ t6, .showLoginScreen req, false, t', clnt, f, req, by simp, rfl, hnp,
          ⟨foundClient_mono hf12 fun e he => by simp [he], ha, hb, hm, inert_append.2 ⟨hi12, hi6⟩, .inl rfl⟩⟩
      · right
        exact ⟨t0 ++ t6, .showConsentScreen clnt req, false, t', clnt, f, req, by simp, rfl, hnp,
          ⟨foundClient_mono hf12 fun e he => by simp [he], ha, hb, hm, inert_append.2 ⟨hi12, hi6⟩,
            .inr ⟨rfl, passed_mono hpass fun e he => by simp [he]⟩⟩⟩
    · right
      exact ⟨t0 ++ t', .showLoginScreen req, b, [], clnt, f, req, by simp, rfl, by simp,
          ⟨foundClient_mono hf12 fun e he => by simp [he], ha, hb, hm, inert_append.2 ⟨hi12, hi'⟩, .inl rfl⟩⟩
    · right
      exact ⟨t0 ++ t', .showConsentScreen clnt req, true, [], clnt, f, req, by simp, rfl, by simp,
          ⟨foundClient_mono hf12 fun e he => by simp [he], ha, hb, hm, inert_append.2 ⟨hi12, hi'⟩,
            .inr ⟨rfl, passed_mono hpass fun e he => by simp [he]⟩⟩⟩
    · left
      refine hsub ?_ (inert_noPrompt hi12)
      intro e he
      rcases List.mem_append.1 he with he | he
      · exact inert_noPrompt hi' e he
      · exact completion_noPrompt hcomp e he

/-- A login or consent screen shown at any point of any run. -/
theorem handleRequest_shown {q : Query} {x : q.Resp} {post : List Event}
    (h : Steps (handleRequest policy lib r) (pre ++ ⟨q, x⟩ :: post)) (hq : q.isPrompt = true) :
    ∃ clnt f req, Shown policy r clnt f req q pre := by
  obtain ⟨t', o, hr⟩ := steps_complete h
  rw [List.append_assoc, List.cons_append] at hr
  rcases handleRequest_screens hr with hn | ⟨pre', q', x', post', clnt, f, req, he, hq', hpost, hs⟩
  · exact absurd hq (hn ⟨q, x⟩ (by simp))
  · obtain ⟨rfl, h2, _⟩ := only_position (P := fun e : Event => e.q.isPrompt = true) he hq
      (inert_noPrompt hs.inert) hpost
    cases h2
    exact ⟨clnt, f, req, hs⟩

end Goidc
