import Verif.Lemmas.Decision
import Verif.Spec.Authorization
import Verif.Props.PureStrings

/-! # Consequences of the anatomy of `HandleRequest` -/

namespace Goidc

open Spec AuthzEndpoint

variable {policy : Policy} {lib : Lib} {r : Req} {t pre : List Event} {resp : HttpResp}

/-- In every run at most one response is written, and it is the last call. -/
def WriteLast {α : Type} (p : Prog α) : Prop :=
  ∀ {t o}, Runs p t o → NoWrite t ∨ ∃ pre resp, t = pre ++ [wrote resp] ∧ NoWrite pre

theorem writeLast_complete {α : Type} {p : Prog α} (hp : WriteLast p) (h : Steps p (pre ++ [wrote resp])) :
    NoWrite pre ∧ ∃ o, Runs p (pre ++ [wrote resp]) o := by
  obtain ⟨t', o, hr⟩ := steps_complete h
  rcases hp hr with hn | ⟨pre', resp', he, hn⟩
  · have := hn (wrote resp) (by simp)
    simp [Query.isWrite] at this
  · rcases List.eq_nil_or_concat t' with rfl | ⟨t'', e, rfl⟩
    · rw [List.append_nil] at hr he
      obtain ⟨h1, h2⟩ := List.append_inj' he rfl
      exact ⟨h1 ▸ hn, o, hr⟩
    · have he' : (pre ++ [wrote resp] ++ t'') ++ [e] = pre' ++ [wrote resp'] := by simpa using he
      obtain ⟨h1, _⟩ := List.append_inj' he' rfl
      have := hn (wrote resp) (by rw [← h1]; simp)
      simp [Query.isWrite] at this

/-- Only iterations over a map. -/
def Ranges (t : List Event) : Prop := ∀ e ∈ t, ∃ m l, e = ⟨.mapRange m, l⟩

theorem ranges_noWrite {t : List Event} (h : Ranges t) : NoWrite t := by
  intro e he
  obtain ⟨m, l, rfl⟩ := h e he
  rfl

/-- Neither a screen nor a response nor a change of stored data. -/
def Calm (e : Event) : Prop := Query.isInert e.q = true ∨ ∃ m l, e = ⟨.mapRange m, l⟩

/-- A login or consent screen callback that failed. -/
def FailedScreen (e : Event) : Prop :=
  (∃ req, e = ⟨.showLoginScreen req, false⟩) ∨ ∃ c req, e = ⟨.showConsentScreen c req, false⟩

/-- An error response was sent. -/
structure AuthRefused (lib : Lib) (r : Req) (clnt : Client) (pre : List Event) (resp : HttpResp) : Prop where
  found : FoundClient r clnt pre
  accepts : clnt.canUseRedirectURI (r.formValue b!"redirect_uri") = true
  delivers : ∃ typ desc ch, (typ ∈ buildErrors ∨ typ ∈ decisionErrors) ∧
    Delivers resp (r.formValue b!"redirect_uri") (errorResponse typ desc (r.formValue b!"state")) ch
  quiet : ∀ e ∈ pre, Query.isInert e.q = true ∨ (∃ m l, e = ⟨.mapRange m, l⟩) ∨
    (∃ req, e = ⟨.showLoginScreen req, false⟩) ∨ (∃ c req, e = ⟨.showConsentScreen c req, false⟩)
  once : (∀ e ∈ pre, Calm e) ∨ ∃ a e b, pre = a ++ e :: b ∧ (∀ x ∈ a ++ b, Calm x) ∧ FailedScreen e ∧
    ∃ desc ch, Delivers resp (r.formValue b!"redirect_uri")
      (errorResponse b!"server_error" desc (r.formValue b!"state")) ch

/-- A success response was sent. -/
structure Succeeded (policy : Policy) (lib : Lib) (r : Req) (clnt : Client) (f : Flow) (req : Request)
    (info : AuthInfo) (before work after : List Event) (ps : Params) (resp : HttpResp) : Prop where
  found : FoundClient r clnt before
  accepts : clnt.canUseRedirectURI (r.formValue b!"redirect_uri") = true
  built : Built policy r clnt f req
  inert : Inert before
  covered : Covered policy req info before
  path : NonePath lib clnt req before ∨
    (MayInteract clnt req ∧ Prompt.includeConsent req.prompt = false ∧
      clnt.noConsentPromptPolicy = .omitConsentIfCan ∧ Passed req before)
  working : Work work
  parts : CompleteParts policy lib (some info) req f work ps
  ranging : Ranges after
  delivers : Delivers resp (r.formValue b!"redirect_uri") ps (channel req.responseMode)

theorem identified_found {clnt : Client} (h : Identified r clnt t) : FoundClient r clnt t ∧
    clnt.canUseRedirectURI (r.formValue b!"redirect_uri") = true ∧ Inert t := by
  obtain ⟨_, _, hu, rfl | ⟨n, rfl⟩⟩ := h
  · exact ⟨⟨none, .inl rfl, by simp⟩, hu, inert_cons.2 ⟨rfl, inert_nil⟩⟩
  · exact ⟨⟨some (.other n), .inr ⟨n, rfl⟩, by simp⟩, hu, inert_cons.2 ⟨rfl, inert_nil⟩⟩

theorem foundClient_mono {clnt : Client} {t t' : List Event} (h : FoundClient r clnt t) (hs : ∀ e ∈ t, e ∈ t') :
    FoundClient r clnt t' := by
  obtain ⟨e, he, hm⟩ := h
  exact ⟨e, he, hs _ hm⟩

theorem covered_mono {req : Request} {info : AuthInfo} {t t' : List Event} (h : Covered policy req info t)
    (hs : ∀ e ∈ t, e ∈ t') : Covered policy req info t' := by
  obtain ⟨uid, now, h1, h2, h3, h4, h5, h6⟩ := h
  exact ⟨uid, now, hs _ h1, hs _ h2, h3, h4, hs _ h5, h6⟩

/-- How `HandleRequest` can end. -/
inductive Ending (policy : Policy) (lib : Lib) (r : Req) : List Event → Outcome Bool → Prop
  | screen (t : List Event) (n : Nat) : Inert t → Ending policy lib r (t ++ [⟨.showErrorScreen n, ()⟩]) (.ok false)
  | refused (clnt : Client) (pre : List Event) (resp : HttpResp) : AuthRefused lib r clnt pre resp → NoWrite pre →
      Ending policy lib r (pre ++ [wrote resp]) (.ok false)
  | login (clnt : Client) (f : Flow) (req : Request) (t : List Event) (b : Bool) : FoundClient r clnt t → Built policy r clnt f req → MayInteract clnt req → Inert t →
      (b = true ∨ Prompt.includeLogin req.prompt = true ∨ req.maxAge > 0) →
      Ending policy lib r (t ++ [⟨.showLoginScreen req, b⟩]) (.ok false)
  | consent (clnt : Client) (f : Flow) (req : Request) (t : List Event) : FoundClient r clnt t → Built policy r clnt f req → MayInteract clnt req → Inert t →
      Passed req t → Ending policy lib r (t ++ [⟨.showConsentScreen clnt req, true⟩]) (.ok true)
  | success (clnt : Client) (f : Flow) (req : Request) (info : AuthInfo) (before work after : List Event)
      (ps : Params) (resp : HttpResp) :
      Succeeded policy lib r clnt f req info before work after ps resp →
      Ending policy lib r (before ++ work ++ after ++ [wrote resp]) (.ok true)
  | panic (t : List Event) : NoWrite t → Ending policy lib r t .panic
  | failed (clnt : Client) (f : Flow) (req : Request) (info : AuthInfo) (before work after : List Event)
      (resp : HttpResp) : FoundClient r clnt before →
      clnt.canUseRedirectURI (r.formValue b!"redirect_uri") = true → Built policy r clnt f req → Inert before →
      Covered policy req info before → Work work → Ranges after →
      Delivers resp (r.formValue b!"redirect_uri")
        (errorResponse b!"server_error" [] (r.formValue b!"state")) (channel req.responseMode) →
      Ending policy lib r (before ++ work ++ after ++ [wrote resp]) (.ok false)

theorem rejected_ending {mode types clnt pre o}
    (hf : FoundClient r clnt pre) (ha : clnt.canUseRedirectURI (r.formValue b!"redirect_uri") = true)
    (hq : Inert pre ∨ ∃ a e, pre = a ++ [e] ∧ Inert a ∧ FailedScreen e ∧ types = [b!"server_error"])
    (hty : ∀ x ∈ types, x ∈ buildErrors ∨ x ∈ decisionErrors)
    (h : Rejected lib mode (r.formValue b!"redirect_uri") (r.formValue b!"state") types t o) :
    Ending policy lib r (pre ++ t) o := by
  have hfs : ∀ e, FailedScreen e → e.q.isWrite = false := by
    rintro e (⟨_, rfl⟩ | ⟨_, _, rfl⟩) <;> rfl
  have hnw : NoWrite pre := by
    rcases hq with hq | ⟨a, e, rfl, ha', he, _⟩
    · exact inert_noWrite hq
    · exact noWrite_append.2 ⟨inert_noWrite ha', noWrite_cons.2 ⟨hfs e he, noWrite_nil⟩⟩
  obtain ⟨t1, t2, rfl, hi, ⟨rfl, rfl, _⟩ | ⟨rfl, typ, ht, desc, resp, hs, hd⟩⟩ := h
  · rw [List.append_nil]
    exact .panic _ (noWrite_append.2 ⟨hnw, inert_noWrite hi⟩)
  · obtain ⟨p, rfl, hp1, hp2⟩ := sentTrace_last hs
    rw [show pre ++ (t1 ++ (p ++ [wrote resp])) = (pre ++ t1 ++ p) ++ [wrote resp] by simp]
    refine .refused clnt _ _ ⟨foundClient_mono hf (fun e he => by simp [he]), ha, ⟨typ, desc, _, hty _ ht, hd⟩, ?_, ?_⟩
      (noWrite_append.2 ⟨noWrite_append.2 ⟨hnw, inert_noWrite hi⟩, hp1⟩)
    · intro e he
      rcases List.mem_append.1 he with he | he
      · rcases List.mem_append.1 he with he | he
        · rcases hq with hq | ⟨a, e', rfl, ha', he', _⟩
          · exact .inl (hq e he)
          · rcases List.mem_append.1 he with he | he
            · exact .inl (ha' e he)
            · obtain rfl : e = e' := by simpa using he
              exact .inr (.inr he')
        · exact .inl (hi e he)
      · exact .inr (.inl (hp2 e he))
    · rcases hq with hq | ⟨a, e', rfl, ha', he', rfl⟩
      · left
        intro e he
        rcases List.mem_append.1 he with he | he
        · rcases List.mem_append.1 he with he | he
          · exact .inl (hq e he)
          · exact .inl (hi e he)
        · exact .inr (hp2 e he)
      · right
        obtain rfl : typ = b!"server_error" := by simpa using ht
        refine ⟨a, e', t1 ++ p, by simp, ?_, he', desc, _, hd⟩
        intro e he
        simp only [List.mem_append] at he
        rcases he with he | he | he
        · exact .inl (ha' e he)
        · exact .inl (hi e he)
        · exact .inr (hp2 e he)

theorem handleRequest_ending {o} (h : Runs (handleRequest policy lib r) t o) : Ending policy lib r t o := by
  rcases handleRequest_runs h with hn | ⟨clnt, t1, t2, rfl, h1, mode, h2⟩ | ⟨clnt, t1, t2, t3, f, req, rfl, h1, h2, hb, h3⟩
  · rcases hn with ⟨t1, n, rfl, hi, rfl⟩ | ⟨rfl, n, rfl⟩
    · exact .screen _ _ hi
    · exact .panic _ (noWrite_cons.2 ⟨rfl, noWrite_nil⟩)
  · obtain ⟨hf, ha, hi⟩ := identified_found h1
    exact rejected_ending hf ha (.inl hi) (fun _ h => .inl h) h2
  · obtain ⟨hf, ha, hi⟩ := identified_found h1
    have hi12 : Inert (t1 ++ t2) := inert_append.2 ⟨hi, h2⟩
    have hf12 : FoundClient r clnt (t1 ++ t2) := foundClient_mono hf fun e he => by simp [he]
    rw [← List.append_assoc]
    generalize t1 ++ t2 = t0 at hi12 hf12
    rcases h3 with ⟨p, t', rfl, hr, hse, hp⟩ | ⟨hm, rfl, t', b, rfl, hi', hw⟩ | ⟨hm, rfl, t', rfl, hi', hpass⟩ |
      ⟨t4, t5, info, rfl, hi', hc, hpath, hcomp, _⟩
    · rw [← List.append_assoc]
      rw [hb.redirectURI, hb.state] at hr hse
      have hf' : FoundClient r clnt (t0 ++ p) := foundClient_mono hf12 fun e he => by simp [he]
      rcases hp with rfl | ⟨_, t6, hi6, rfl⟩ | ⟨_, t6, hi6, _, rfl⟩
      · exact rejected_ending hf' ha (.inl (by simpa using hi12)) (fun _ h => .inr h) hr
      · rcases hse with hse | hse
        · simp at hse
        · exact rejected_ending hf' ha (.inr ⟨t0 ++ t6, _, by rw [List.append_assoc], inert_append.2 ⟨hi12, hi6⟩,
            .inl ⟨req, rfl⟩, rfl⟩) (by decide +kernel) hse
      · rcases hse with hse | hse
        · simp at hse
        · exact rejected_ending hf' ha (.inr ⟨t0 ++ t6, _, by rw [List.append_assoc], inert_append.2 ⟨hi12, hi6⟩,
            .inr ⟨clnt, req, rfl⟩, rfl⟩) (by decide +kernel) hse
    · rw [← List.append_assoc]
      exact .login _ _ _ _ _ (foundClient_mono hf12 fun e he => by simp [he]) hb hm (inert_append.2 ⟨hi12, hi'⟩) hw
    · rw [← List.append_assoc]
      exact .consent _ _ _ _ (foundClient_mono hf12 fun e he => by simp [he]) hb hm (inert_append.2 ⟨hi12, hi'⟩)
        (passed_mono hpass fun e he => by simp [he])
    · rw [← List.append_assoc]
      have hsub : ∀ e ∈ t4, e ∈ t0 ++ t4 := fun e he => by simp [he]
      have hib : Inert (t0 ++ t4) := inert_append.2 ⟨hi12, hi'⟩
      have hfb : FoundClient r clnt (t0 ++ t4) := foundClient_mono hf12 fun e he => by simp [he]
      have hcb := covered_mono hc hsub
      have hpb : NonePath lib clnt req (t0 ++ t4) ∨ (MayInteract clnt req ∧
          Prompt.includeConsent req.prompt = false ∧ clnt.noConsentPromptPolicy = .omitConsentIfCan ∧
          Passed req (t0 ++ t4)) := by
        rcases hpath with h | ⟨h1, h2, h3, h4⟩
        · exact .inl (nonePath_mono h hsub)
        · exact .inr ⟨h1, h2, h3, passed_mono h4 hsub⟩
      rcases hcomp with ⟨rfl, hw, _⟩ | ⟨rfl, rfl, f', hf', hty⟩ | ⟨rfl, t6, t7, resp, rfl, hw, hs, hd⟩ |
        ⟨rfl, f', t6, t7, ps, resp, hf', rfl, hw, hparts, hs, hd⟩
      · exact .panic _ (noWrite_append.2 ⟨inert_noWrite hib, work_noWrite hw⟩)
      · exfalso
        rw [hb.flow] at hf'
        cases hf'
        exact (Props.C47_accepted_tokens (fields_iff.2 rfl) hb.judged).2.2.1 hty
      · obtain ⟨p, rfl, hp1, hp2⟩ := sentTrace_last hs
        rw [hb.redirectURI, hb.state] at hd
        rw [show t0 ++ t4 ++ (t6 ++ (p ++ [wrote resp])) = t0 ++ t4 ++ t6 ++ p ++ [wrote resp] by simp]
        exact .failed _ _ _ _ _ _ _ _ hfb ha hb hib hcb hw hp2 hd
      · rw [hb.flow] at hf'
        cases hf'
        obtain ⟨p, rfl, hp1, hp2⟩ := sentTrace_last hs
        rw [hb.redirectURI] at hd
        rw [show t0 ++ t4 ++ (t6 ++ (p ++ [wrote resp])) = t0 ++ t4 ++ t6 ++ p ++ [wrote resp] by simp]
        exact .success _ _ _ _ _ _ _ _ _ ⟨hfb, ha, hb, hib, hcb, hpb, hw, hparts, hp2, hd⟩

theorem ending_write {o} (h : Ending policy lib r t o) :
    NoWrite t ∨ ∃ pre resp, t = pre ++ [wrote resp] ∧ NoWrite pre := by
  cases h with
  | screen _ _ hi => exact .inl (noWrite_append.2 ⟨inert_noWrite hi, noWrite_cons.2 ⟨rfl, noWrite_nil⟩⟩)
  | refused _ _ _ h hn => exact .inr ⟨_, _, rfl, hn⟩
  | login _ _ _ _ _ _ _ _ hi => exact .inl (noWrite_append.2 ⟨inert_noWrite hi, noWrite_cons.2 ⟨rfl, noWrite_nil⟩⟩)
  | consent _ _ _ _ _ _ _ hi => exact .inl (noWrite_append.2 ⟨inert_noWrite hi, noWrite_cons.2 ⟨rfl, noWrite_nil⟩⟩)
  | success _ _ _ _ _ _ _ _ _ h =>
    exact .inr ⟨_, _, rfl, noWrite_append.2 ⟨noWrite_append.2 ⟨inert_noWrite h.inert, work_noWrite h.working⟩,
      ranges_noWrite h.ranging⟩⟩
  | panic _ h => exact .inl h
  | failed _ _ _ _ _ _ _ _ _ _ _ hi _ hw hr =>
    exact .inr ⟨_, _, rfl, noWrite_append.2 ⟨noWrite_append.2 ⟨inert_noWrite hi, work_noWrite hw⟩,
      ranges_noWrite hr⟩⟩

theorem handleRequest_writeLast : WriteLast (handleRequest policy lib r) :=
  fun h => ending_write (handleRequest_ending h)

/-- A response was written: an error or a success. -/
theorem handleRequest_wrote (h : Steps (handleRequest policy lib r) (pre ++ [wrote resp])) :
    (∃ clnt typ desc ch, Runs (handleRequest policy lib r) (pre ++ [wrote resp]) (.ok false) ∧
      FoundClient r clnt pre ∧ clnt.canUseRedirectURI (r.formValue b!"redirect_uri") = true ∧
      Delivers resp (r.formValue b!"redirect_uri") (errorResponse typ desc (r.formValue b!"state")) ch) ∨
    (∃ clnt f req info before work after ps, pre = before ++ work ++ after ∧
      Runs (handleRequest policy lib r) (pre ++ [wrote resp]) (.ok true) ∧
      Succeeded policy lib r clnt f req info before work after ps resp) := by
  obtain ⟨hnw, o, hr⟩ := writeLast_complete handleRequest_writeLast h
  have he := handleRequest_ending hr
  have hinj : ∀ {p1 p2 : List Event} {e1 e2 : Event}, p1 ++ [e1] = p2 ++ [e2] → p1 = p2 ∧ e1 = e2 := by
    intro p1 p2 e1 e2 h
    obtain ⟨h1, h2⟩ := List.append_inj' h rfl
    exact ⟨h1, by simpa using h2⟩
  generalize ht : pre ++ [wrote resp] = t at he hr
  cases he with
  | screen _ _ hi => exact absurd (hinj ht).2 (by simp [wrote])
  | login _ _ _ _ _ _ _ _ hi => exact absurd (hinj ht).2 (by simp [wrote])
  | consent _ _ _ _ _ _ _ hi => exact absurd (hinj ht).2 (by simp [wrote])
  | panic _ hn =>
    subst ht
    exact absurd (hn (wrote resp) (by simp)) (by simp [Query.isWrite])
  | refused _ _ _ h hn =>
    obtain ⟨rfl, h2⟩ := hinj ht
    simp only [wrote, Event.mk.injEq, Query.write.injEq] at h2
    obtain ⟨rfl, _⟩ := h2
    obtain ⟨hf, ha, ⟨typ, desc, ch, _, hd⟩, _⟩ := h
    exact .inl ⟨_, typ, desc, ch, hr, hf, ha, hd⟩
  | failed _ _ _ _ _ _ _ _ hf ha _ _ _ _ _ hd =>
    obtain ⟨rfl, h2⟩ := hinj ht
    simp only [wrote, Event.mk.injEq, Query.write.injEq] at h2
    obtain ⟨rfl, _⟩ := h2
    exact .inl ⟨_, _, _, _, hr, foundClient_mono hf (fun e he => by simp [he]), ha, hd⟩
  | success _ _ _ _ _ _ _ _ _ h =>
    obtain ⟨rfl, h2⟩ := hinj ht
    simp only [wrote, Event.mk.injEq, Query.write.injEq] at h2
    obtain ⟨rfl, _⟩ := h2
    exact .inr ⟨_, _, _, _, _, _, _, _, rfl, hr, h⟩

/-- The run returned true and wrote: a success. -/
theorem handleRequest_true (h : Runs (handleRequest policy lib r) (pre ++ [wrote resp]) (.ok true)) :
    ∃ clnt f req info before work after ps, pre = before ++ work ++ after ∧
      Succeeded policy lib r clnt f req info before work after ps resp := by
  rcases handleRequest_wrote (runs_steps h) with ⟨_, _, _, _, h', _⟩ | ⟨c, f, req, info, b, w, a, ps, h1, _, h2⟩
  · have := runs_det h h'
    simp at this
  · exact ⟨c, f, req, info, b, w, a, ps, h1, h2⟩

end Goidc
