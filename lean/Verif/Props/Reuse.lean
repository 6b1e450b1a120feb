import Verif.Spec.Reuse
import Verif.Props.TokenScope

/-! # C123: a code that is used twice -/

namespace Goidc.Props

open Spec TokenEndpoint AuthzEndpoint ResourceProtector StoreState

variable {ths : Nat → Thread} {g0 g1 g2 : List (Nat × Event)}

/-- Consent, code, token; then the code again; then the token is used. -/
def reuseThreads : Nat → Prog Unit
  | 0 => Sample.closed (handleRequest Policy.default Sample.lib Sample.consentReq) id
  | 1 => Sample.closed (completeRequest Policy.default Sample.lib Sample.consentReq) id
  | 2 => handler Sample.tokenCfg Sample.lib (Sample.post Sample.codeBody)
  | 3 => handler Sample.tokenCfg Sample.lib (Sample.post Sample.codeBody)
  | 4 => Sample.closed (validate Sample.protectorCfg Sample.lib Sample.bearerReq) fun x => x.1
  | _ => .ret ()

def reuseEndpoints : Nat → Thread
  | 0 => ⟨handleRequest Policy.default Sample.lib Sample.consentReq⟩
  | 1 => ⟨completeRequest Policy.default Sample.lib Sample.consentReq⟩
  | 2 => ⟨handler Sample.tokenCfg Sample.lib (Sample.post Sample.codeBody)⟩
  | 3 => ⟨handler Sample.tokenCfg Sample.lib (Sample.post Sample.codeBody)⟩
  | 4 => ⟨validate Sample.protectorCfg Sample.lib Sample.bearerReq⟩
  | _ => ⟨(.ret () : Prog Unit)⟩

def reuseSchedule : List Nat := [0, 1, 2, 3, 4].flatMap (List.replicate 20)

def reuseRun : List (Nat × Event) × (StoreState × Option Request) :=
  schedule Sample.webDet reuseSchedule reuseThreads (Sample.webStart, none)

theorem reuse_interleaves : Interleaves reuseEndpoints reuseRun.1 := by
  intro i
  have h := schedule_interleaves Sample.webDet reuseSchedule reuseThreads (Sample.webStart, none) i
  match i with
  | 0 => exact Sample.closed_steps h
  | 1 => exact Sample.closed_steps h
  | 2 => exact h
  | 3 => exact h
  | 4 => exact Sample.closed_steps h
  | _ + 5 => exact h

theorem reuse_chain : Chain Sample.Web (Sample.webStart, none) (reuseRun.1.map (·.2)) reuseRun.2 :=
  schedule_chain Sample.webDet_step reuseSchedule reuseThreads (Sample.webStart, none)

theorem reuse_admitted : ∃ r', Runs (validate Sample.protectorCfg Sample.lib Sample.bearerReq) (callsOf 4 reuseRun.1) (.ok (true, r')) := by
  have h := Sample.remaining_runs Sample.webDet reuseSchedule reuseThreads (Sample.webStart, none) 4 (Sample.over_runs (by decide +kernel))
  rw [List.append_nil] at h
  obtain ⟨⟨b, r'⟩, h1, h2⟩ := Sample.closed_runs h
  obtain rfl : b = true := h2
  exact ⟨r', h1⟩

/-- The events up to the first token response, those of the second use of the code, and the later ones. -/
def reuseFirst : List (Nat × Event) := (reuseRun.1.takeWhile (·.1 < 4)).takeWhile (·.1 < 3)
def reuseAgain : List (Nat × Event) := (reuseRun.1.takeWhile (·.1 < 4)).dropWhile (·.1 < 3)
def reuseLater : List (Nat × Event) := reuseRun.1.dropWhile (·.1 < 4)

theorem reuse_split : reuseFirst ++ reuseAgain ++ reuseLater = reuseRun.1 := by
  unfold reuseFirst reuseAgain reuseLater
  rw [List.takeWhile_append_dropWhile, List.takeWhile_append_dropWhile]

theorem reuse_apart : ∀ e, (4, e) ∉ reuseFirst ++ reuseAgain := by
  have h : (reuseFirst ++ reuseAgain).all (fun x => x.1 != 4) = true := by decide +kernel
  intro e he
  have := List.all_eq_true.1 h _ he
  simp at this

theorem reuse_token : ∃ resp, (2, wrote resp) ∈ reuseFirst ∧ resp.status = 200 ∧ resp.body = firstToken.json := by
  have h : reuseFirst.any (fun x => x.1 == 2 && match x.2.q with
      | .write resp => resp.status == 200 && resp.body == firstToken.json
      | _ => false) = true := by decide +kernel
  obtain ⟨⟨j, q, x⟩, hm, h'⟩ := List.any_eq_true.1 h
  cases q <;> simp at h'
  obtain ⟨rfl, h1, h2⟩ := h'
  exact ⟨_, hm, h1, h2⟩

theorem reuse_denied : ∃ resp, (3, wrote resp) ∈ reuseAgain ∧ resp.status = 400 := by
  have h : reuseAgain.any (fun x => x.1 == 3 && match x.2.q with
      | .write resp => resp.status == 400
      | _ => false) = true := by decide +kernel
  obtain ⟨⟨j, q, x⟩, hm, h'⟩ := List.any_eq_true.1 h
  cases q <;> simp at h'
  obtain ⟨rfl, h1⟩ := h'
  exact ⟨_, hm, h1⟩

theorem reuse_endpoints : ∀ i, Endpoint (reuseEndpoints i) := by
  intro i
  match i with
  | 0 => exact .authorize
  | 1 => exact .complete
  | 2 => exact .token sample_allBuiltIn
  | 3 => exact .token sample_allBuiltIn
  | 4 => exact .protect
  | _ + 5 => exact .idle

/-- C123 is false: the code is presented again and refused (as C60 says), and the token issued for it goes on to admit requests
(as `C88_access_usable` says: nothing but a refresh or another authorization ends it before it expires). -/
theorem C123_false : ¬ ReuseRevokes := by
  intro h
  obtain ⟨resp, hw, h200, hbody⟩ := reuse_token
  obtain ⟨resp', hw', h400⟩ := reuse_denied
  obtain ⟨r', hr⟩ := reuse_admitted
  have hc : callsOf 4 reuseLater = callsOf 4 reuseRun.1 := by
    have : callsOf 4 (reuseFirst ++ reuseAgain) = [] := by
      refine List.eq_nil_iff_forall_not_mem.2 fun e he => reuse_apart e (mem_callsOf.1 he)
    rw [← reuse_split, callsOf_append, this, List.nil_append]
  refine h [⟨5, b!"u", b!"p"⟩] [Sample.client] reuseEndpoints reuseFirst reuseAgain reuseLater reuseRun.2.1 2 4 3 Sample.tokenCfg Sample.lib
    (Sample.post Sample.codeBody) (Sample.post Sample.codeBody) resp resp' firstToken Sample.protectorCfg Sample.lib Sample.bearerReq r'
    reuse_endpoints ?_ ?_ ?_ sample_allBuiltIn sample_code_registered sample_code_registered rfl
    rfl hw h200 hbody rfl hw' h400 reuse_apart ?_ (hc ▸ hr)
  · rw [reuse_split]; exact reuse_interleaves
  · rw [reuse_split]; exact Sample.web_continuesShown (s' := reuseRun.2.1) (o := reuseRun.2.2) reuse_chain
  · rw [reuse_split]; exact Sample.web_store reuse_chain
  · exact find_iff.1 ⟨by decide +kernel, by decide⟩

end Goidc.Props
