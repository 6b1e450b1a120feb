import Verif.Spec.Removed
import Verif.Props.Confine
import Verif.Props.Revoked
import Verif.Props.Hints
import Verif.Props.Verifier

/-! # C130: nothing more is done for a client that was removed -/

namespace Goidc.Props

open Spec TokenEndpoint AuthzEndpoint ResourceProtector

variable {ths : Nat → Thread} {g a b b1 b2 : List (Nat × Event)} {k : Nat} {e : Event} {d : GoStr}

theorem authenticated_not_removed (hrem : Removed b d) {cfg : TokenCfg} {lib : Lib} {r : Req} {c : Client} {pre : List Event}
    (ha : Authenticated cfg lib r c pre) (hsub : ∀ e ∈ pre, (k, e) ∈ b) : c.id ≠ d := by
  rcases ha with ⟨_, _, _, _, hm, _⟩ | ⟨_, _, _, _, _, _, _, hm⟩
  · exact (hrem _ _ _ _ (hsub _ hm)).2
  · exact (hrem _ _ _ _ (hsub _ hm)).2

/-- The part of C130 that holds: once the application no longer shows a client, every call that changes stored data and is made
by a request that starts later, other than the completion of a login, is made for, and concerns the data of, another client. -/
theorem C130_others_partial (hth : ∀ i, Endpoint (ths i)) (hg : Interleaves ths (a ++ b)) (hk : KeepsRecords (a ++ b))
    (hnil : NoNilAuthorization (a ++ b)) (hrem : Removed b d) (hlate : callsOf k a = [])
    (hnc : ∀ policy lib r, ths k ≠ ⟨completeRequest policy lib r⟩) (hs : b = b1 ++ (k, e) :: b2) (hm : e.q.isMutation = true) :
    ∃ uid cid, SpeaksFor (ths k) (callsOf k b1) uid cid ∧ Concerns (a ++ b1) k e.q uid cid ∧ cid ≠ d := by
  have hs' : a ++ b = (a ++ b1) ++ (k, e) :: b2 := by rw [hs]; simp
  have hkey : e.q.isKey = true := by
    cases e with | mk q x => cases q <;> first | rfl | (cases hm; done)
  obtain ⟨uid, cid, hsp, hc⟩ := C90_confined hth hg hk hnil hs' hm
  have h := global_key hth hg hs' hkey
  rw [callsOf_late hlate] at h hsp
  have hsub : ∀ e ∈ callsOf k b1, (k, e) ∈ b := fun e he => by
    rw [hs]; exact List.mem_append_left _ (mem_callsOf.1 he)
  refine ⟨uid, cid, hsp, hc, ?_⟩
  have hgk := hg k
  rw [callsOf_late hlate, hs, callsOf_append, show callsOf k ((k, e) :: b2) = e :: callsOf k b2 by simp [callsOf]] at hgk
  clear h
  generalize hth' : ths k = th at hgk hsp
  cases hsp with
  | client ha => exact authenticated_not_removed hrem ha hsub
  | consent _ _ => exact absurd hth' (hnc _ _ _)
  | silent _ _ =>
    obtain ⟨clnt, f, req, uid, info, ⟨x, _, hf⟩, _⟩ := handleRequest_key hgk hkey
    exact (hrem _ _ _ _ (hsub _ hf)).1

/-- C130, token endpoint: once the application no longer shows a client, no token request that starts later is granted to it. -/
theorem C130_token_partial (hrem : Removed b d) {cfg : TokenCfg} {lib : Lib} {r : Req} {pre : List Event} {resp : HttpResp}
    (hb : AllBuiltIn lib cfg) (hlate : callsOf k a = []) (hs : Steps (handler cfg lib r) (pre ++ [wrote resp]))
    (hc : callsOf k (a ++ b) = pre ++ [wrote resp]) (h200 : resp.status = 200) :
    ∃ c, Authenticated cfg lib r c pre ∧ c.id ≠ d := by
  have hsil : ∀ h, Registered cfg r h → Silent h := fun h hr => registered_silent hr (hb _ _ hr) h hr
  obtain ⟨_, _, hf, _, _, _, _, _, hreg, _⟩ := token_200 hsil hs h200
  obtain ⟨c, auth, _, t2, _, ha, _, _, _, _, hd, _⟩ := grant_200 hreg (hb _ _ hreg) hs h200
  rw [callsOf_late hlate] at hc
  have hin : ∀ e ∈ auth, e ∈ pre := fun e he => by
    have h : e ∈ dataCalls pre := by rw [hd]; exact List.mem_append_left _ he
    exact (List.mem_filter.1 h).1
  refine ⟨c, ?_, authenticated_not_removed hrem ha fun e he => mem_callsOf.1 (by rw [hc]; exact List.mem_append_left _ (hin e he))⟩
  rcases ha with ⟨x, y, z, h, hm, h'⟩ | ⟨h0, x, y, z, h, h', h'', hm⟩
  · exact .inl ⟨x, y, z, h, hin _ hm, h'⟩
  · exact .inr ⟨h0, x, y, z, h, h', h'', hin _ hm⟩

/-! ## Logins that are being completed -/

/-- A request in the code flow. -/
def pendingReq : Request := continuedReq ⟨.authorizationCode, true, false⟩ []

/-- The completion of a login, and nothing else. -/
def pendingThreads : Nat → Thread
  | 0 => ⟨completeRequest .default Sample.lib anyReq⟩
  | _ => ⟨(.ret () : Prog Unit)⟩

/-- The calls of the completion of a login. -/
def pendingCalls : List (Nat × Event) :=
  (({ continued := some (some pendingReq) } : Sample.World).run (completeRequest .default Sample.lib anyReq)).1.map fun e => (0, e)

theorem pending_calls (i : Nat) : callsOf i pendingCalls = if i = 0 then
    (({ continued := some (some pendingReq) } : Sample.World).run (completeRequest .default Sample.lib anyReq)).1 else [] := by
  unfold pendingCalls
  generalize (({ continued := some (some pendingReq) } : Sample.World).run (completeRequest .default Sample.lib anyReq)).1 = t
  by_cases h : i = 0
  · subst h
    induction t with
    | nil => rfl
    | cons e t ih => simp [callsOf] at ih ⊢; exact ih
  · induction t with
    | nil => simp [callsOf, h]
    | cons e t ih => simp [callsOf, h, Ne.symm h] at ih ⊢

/-- Whether no client is looked up. -/
def noLookUp (g : List (Nat × Event)) : Bool :=
  g.all fun x => match x.2.q with | .findClientById _ => false | _ => true

/-- C130 does not hold: the completion of a login does not look the client up again, so it records an authorization (and creates
a session and a token) for a client that was removed since the login page was shown. -/
theorem C130_false : ¬ ∀ (ths : Nat → Thread) (g : List (Nat × Event)) (d : GoStr), (∀ i, Endpoint (ths i)) → Interleaves ths g →
    Removed g d → ∀ k uid sc x, (k, (⟨.createOrUpdateAuthInfo uid d sc, x⟩ : Event)) ∉ g := by
  intro H
  have hend : ∀ i, Endpoint (pendingThreads i)
    | 0 => .complete
    | _ + 1 => .idle
  have hi : Interleaves pendingThreads pendingCalls := by
    intro i
    rw [pending_calls]
    match i with
    | 0 => exact runs_steps (({ continued := some (some pendingReq) } : Sample.World).runs _)
    | i + 1 => exact steps_nil
  have hrem : Removed pendingCalls pendingReq.clientId := by
    intro k sub c x hm
    have := List.all_eq_true.1 (show noLookUp pendingCalls = true by decide +kernel) _ hm
    cases this
  have hany : (pendingCalls.any fun x => match x.2.q with
      | .createOrUpdateAuthInfo _ cid _ => cid == pendingReq.clientId
      | _ => false) = true := by decide +kernel
  obtain ⟨⟨k, q, x⟩, hm, h⟩ := List.any_eq_true.1 hany
  cases q <;> simp only [Bool.false_eq_true] at h
  case createOrUpdateAuthInfo uid cid sc =>
    obtain rfl : cid = pendingReq.clientId := by simpa using h
    exact H _ _ _ hend hi hrem k uid sc x hm

/-- Whether no look-up shows the client. -/
def neverShown (d : GoStr) (g : List (Nat × Event)) : Bool :=
  g.all fun x => match x.2 with
    | ⟨.findClientById sub, (some c, _)⟩ => sub != d && c.id != d
    | _ => true

theorem removed_of_neverShown (h : neverShown d g = true) : Removed g d := by
  intro k sub c x hm
  simpa using List.all_eq_true.1 h _ hm

/-- The hypotheses of `C130_token_partial` and `C130_others_partial` are met: the client `client` gets a token and is not seen
again, and a later request of another client records an authorization and gets a token. -/
example : (∀ i, Endpoint ⟨twoThreads i⟩) ∧ Interleaves (fun i => ⟨twoThreads i⟩) (twoRun.1.take 7 ++ twoRun.1.drop 7) ∧
    (∃ resp, (0, wrote resp) ∈ twoRun.1.take 7 ∧ resp.status = 200) ∧ Removed (twoRun.1.drop 7) b!"client" ∧
    callsOf 1 (twoRun.1.take 7) = [] ∧ (∃ resp, (1, wrote resp) ∈ twoRun.1.drop 7 ∧ resp.status = 200) ∧
    (∃ x ∈ twoRun.1.drop 7, x.1 = 1 ∧ x.2.q.isMutation = true) ∧ KeepsRecords (twoRun.1.take 7 ++ twoRun.1.drop 7) ∧
    NoNilAuthorization (twoRun.1.take 7 ++ twoRun.1.drop 7) := by
  have hrun : StoreRun twoStart (twoRun.1.map (·.2)) twoRun.2 :=
    schedule_chain (fun _ _ _ _ h => StoreState.det_step h) _ twoThreads twoStart
  refine ⟨?_, ?_, answered_mem (by decide +kernel), removed_of_neverShown (by decide +kernel), ?_, answered_mem (by decide +kernel),
    ?_, ?_, ?_⟩
  · intro i
    match i with
    | 0 => exact .token sample_allBuiltIn
    | 1 => exact .token sample_allBuiltIn
    | _ + 2 => exact .idle
  · rw [List.take_append_drop]; exact schedule_interleaves (StoreState.det 1000) _ twoThreads twoStart
  · have h : (callsOf 1 (twoRun.1.take 7)).isEmpty = true := by decide +kernel
    simpa using h
  · have h : (twoRun.1.drop 7).any (fun x => x.1 == 1 && x.2.q.isMutation) = true := by decide +kernel
    obtain ⟨x, hm, h⟩ := List.any_eq_true.1 h
    exact ⟨x, hm, by simpa using h⟩
  · rw [List.take_append_drop]; exact store_keeps hrun (by decide +kernel)
  · rw [List.take_append_drop]; exact store_noNil hrun

end Goidc.Props
