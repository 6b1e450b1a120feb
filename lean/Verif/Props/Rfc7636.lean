import Verif.Spec.Rfc7636
import Verif.Props.Ignored
import Verif.Props.Origin
import Verif.Props.CodeGrant

/-! # C110: PKCE as RFC 7636 has it -/

namespace Goidc.Props

open Spec TokenEndpoint AuthzEndpoint

theorem recognised_but {names params : List GoStr} {ps ps' : Params} (hd : ∀ n ∈ params, n ∉ names)
    (h : ps.filter (fun kv => decide (kv.1 ∉ names)) = ps'.filter (fun kv => decide (kv.1 ∉ names))) :
    recognised params ps = recognised params ps' := by
  have key : ∀ l : Params, recognised params l = recognised params (l.filter (fun kv => decide (kv.1 ∉ names))) := by
    intro l
    unfold recognised
    rw [List.filter_filter]
    refine List.filter_congr fun kv _ => ?_
    by_cases hp : kv.1 ∈ params
    · simp [hp, hd _ hp]
    · simp [hp]
  rw [key ps, key ps', h]

theorem differ_recognised {names params hs : List GoStr} {r r' : Req} (hd : ∀ n ∈ params, n ∉ names) (h : DifferIn names r r') :
    SameRecognised params hs r r' :=
  ⟨h.method, h.multipart, recognised_but hd h.body, recognised_but hd h.query, by rw [h.headers]⟩

/-- C110, what is missing: the challenge of an authorization request is not even read.  Authorization requests that
differ in `code_challenge` and `code_challenge_method` only are served alike, whatever happens. -/
theorem C110_challenge_unread_partial {policy : Policy} {lib : Lib} {r r' : Req} {t : List Event} {o : Outcome Bool}
    (h : DifferIn [b!"code_challenge", b!"code_challenge_method"] r r') :
    Runs (handleRequest policy lib r) t o ↔ Runs (handleRequest policy lib r') t o :=
  C98_authorization (differ_recognised (by decide) h) h.path

/-- C110, what is missing: the verifier of a token request is not read either. -/
theorem C110_verifier_unread_partial {cfg : TokenCfg} {lib : Lib} {r r' : Req} {t : List Event} {o : Outcome Unit}
    (hb : AllBuiltIn lib cfg) (h : DifferIn [b!"code_verifier"] r r') :
    Runs (handler cfg lib r) t o ↔ Runs (handler cfg lib r') t o :=
  C98_token hb (differ_recognised (by decide) h)

/-- An authorization request with a challenge, as RFC 7636 has it. -/
def rfcReq : Req :=
  { Sample.consentReq with query := [(b!"client_id", b!"client"), (b!"redirect_uri", b!"https://app/cb"), (b!"response_type", b!"code"),
    (b!"scope", b!"openid email"), (b!"prompt", b!"consent"), (b!"nonce", b!"n"),
    (b!"code_challenge", b!"E9Melhoa2OwvFrEMTJguCHaoeK1t8URWbuGJSstw-cM"), (b!"code_challenge_method", b!"S256")] }

/-- The exchange of the code by somebody who has only the code (and the client's secret, if it has one). -/
def stolenCode : Params :=
  [(b!"grant_type", b!"authorization_code"), (b!"code", b!"code"), (b!"redirect_uri", b!"https://app/cb")]

def rfcThreads : Nat → Prog Unit
  | 0 => Sample.closed (handleRequest Policy.default Sample.lib rfcReq) id
  | 1 => Sample.closed (completeRequest Policy.default Sample.lib rfcReq) id
  | 2 => handler Sample.tokenCfg Sample.lib (Sample.post stolenCode)
  | _ => .ret ()

def rfcRun : List (Nat × Event) × (StoreState × Option Request) :=
  schedule Sample.webDet Sample.webSchedule rfcThreads (Sample.webStart, none)

theorem rfc_interleaves : Interleaves (codeFlow Policy.default Sample.lib rfcReq rfcReq Sample.tokenCfg (Sample.post stolenCode)) rfcRun.1 := by
  intro i
  have h := schedule_interleaves Sample.webDet Sample.webSchedule rfcThreads (Sample.webStart, none) i
  match i with
  | 0 => exact Sample.closed_steps h
  | 1 => exact Sample.closed_steps h
  | 2 => exact h
  | _ + 3 => exact h

theorem rfc_chain : Chain Sample.Web (Sample.webStart, none) (rfcRun.1.map (·.2)) rfcRun.2 :=
  schedule_chain Sample.webDet_step Sample.webSchedule rfcThreads (Sample.webStart, none)

/-- C110 is false: a code requested with a challenge is handed over to a request without any verifier. -/
theorem C110_false : ¬ ProtectsRfc := by
  intro h
  obtain ⟨resp, hw, h200⟩ := answered_mem (g := rfcRun.1) (i := 2) (n := 200) (by decide +kernel)
  have := h _ _ _ _ _ _ _ _ _ _ resp sample_allBuiltIn rfc_interleaves
    (Sample.web_continuesShown (s' := rfcRun.2.1) (o := rfcRun.2.2) rfc_chain) (Sample.web_store rfc_chain)
    (by decide +kernel) rfl hw h200
  exact this.1 (by decide +kernel)

/-- What the code flow of one request creates sessions with is the verifier of that request. -/
theorem flow_verifier {policy : Policy} {lib : Lib} {r' d : Req} {cfg : TokenCfg} {r : Req} {g a b : List (Nat × Event)}
    {k : Nat} {j : Option AuthInfo} {x : Session} (hb : AllBuiltIn lib cfg) (hg : Interleaves (codeFlow policy lib r' d cfg r) g)
    (hc : ContinuesShown g) (hs : g = a ++ (k, ⟨.createAuthSession j x, none⟩) :: b) :
    x.codeVerifier = r'.formValue b!"code_verifier" := by
  have hst := interleaves_split hg hs
  match k, hs, hst with
  | 0, hs, hst =>
    obtain ⟨clnt, f, req, uid, info, _, _, hbt, _, _, hk⟩ := handleRequest_key (r := r') hst rfl
    cases hk with
    | session code at_ _ => exact hbt.verifier
  | 1, hs, hst =>
    obtain ⟨req, uid, hcont, _, hk⟩ := completeRequest_key (r := d) hst rfl
    have hv : x.codeVerifier = req.codeVerifier := by
      cases hk with
      | complete info q _ hk =>
        cases hk with
        | session code at_ _ => rfl
    rw [hv]
    have hcg : (1, (⟨.continue_, some (some req)⟩ : Event)) ∈ g := mem_left hs hcont
    obtain ⟨a', b', hs'⟩ := List.append_of_mem hcg
    obtain ⟨k', clnt, hm⟩ := hc hs'
    obtain ⟨a1, a2, rfl⟩ := List.append_of_mem hm
    have hst' := interleaves_split hg (a := a1) (k := k') (e := ⟨.showConsentScreen clnt req, true⟩)
      (b := a2 ++ (1, ⟨.continue_, some (some req)⟩) :: b') (by rw [hs']; simp)
    match k', hst' with
    | 0, hst' =>
      obtain ⟨c, f, rq, hsh⟩ := handleRequest_shown (r := r') hst' rfl
      rcases hsh.which with hw | ⟨hw, _⟩
      · cases hw
      · cases hw
        exact hsh.built.verifier
    | 1, hst' =>
      have := allQ_steps (noPrompt_completeRequest (policy := policy) (lib := lib) (r := d)) hst' ⟨.showConsentScreen clnt req, true⟩ (by simp)
      cases this
    | 2, hst' => exact (token_noScreen (r := r) hb hst').elim
    | _ + 3, hst' => exact absurd (show _ ++ _ :: _ = [] from hst') (by simp)
  | 2, hs, hst =>
    obtain ⟨c, _, hk⟩ := token_key (r := r) hb hst rfl
    cases hk
  | _ + 3, hs, hst => exact absurd (show _ ++ _ :: _ = [] from hst) (by simp)

/-- C110, what holds instead: it is the other way round.  In the same setting, a code requested with a `code_verifier` is
exchanged only by a request whose `code_challenge` fits it. -/
theorem C110_reversed_partial {users : List TestUser} {clients : List Client} {policy : Policy} {lib : Lib} {r' d : Req}
    {cfg : TokenCfg} {r : Req} {g : List (Nat × Event)} {s : StoreState} {resp : HttpResp}
    (hb : AllBuiltIn lib cfg) (hg : Interleaves (codeFlow policy lib r' d cfg r) g) (hc : ContinuesShown g)
    (hs : StoreRun (StoreState.init users clients) (g.map (·.2)) s) (hsmall : s.infoIdPod < 2 ^ 63)
    (hreg : Registered cfg r (Grant.authorizationCode lib)) (hw : (2, wrote resp) ∈ g) (h200 : resp.status = 200)
    (hv : r'.formValue b!"code_verifier" ≠ []) : ChallengeFits lib r (r'.formValue b!"code_verifier") := by
  have hk := store_keeps hs hsmall
  obtain ⟨ga, gb, hgs⟩ := List.append_of_mem hw
  have hst := interleaves_split hg hgs
  have hst' : Steps (handler cfg lib r) (callsOf 2 ga ++ [wrote resp]) := by
    refine steps_of_append (t' := callsOf 2 gb) ?_
    rw [List.append_assoc]
    exact hst
  obtain ⟨c, auth, now, sess, info, tk, idc, res, h1, h2, _, h4, _⟩ := code_200 hreg hst' h200
  have hfm : (⟨.findAuthSessionByCode (r.formValue b!"code"), (some sess, none)⟩ : Event) ∈ callsOf 2 ga :=
    (mem_dataCalls rfl).1 (by rw [h4]; simp)
  obtain ⟨x1, x2, hx⟩ := List.append_of_mem (mem_left hgs hfm)
  obtain ⟨k, j, x, hcs, _, _, _, hsv, _⟩ := hk.sessions hx
  obtain ⟨a, b, rfl⟩ := List.append_of_mem hcs
  have hfl := flow_verifier hb hg hc (a := a) (k := k) (j := some j) (x := x) (by rw [hx]; simp; rfl)
  rw [← hfl, ← hsv] at hv ⊢
  exact (C10_pkce hreg hst' h200 hfm hv).2

/-- Its hypotheses are met: the first three requests of the sample deployment. -/
example : ∃ (g : List (Nat × Event)) (s : StoreState) (resp : HttpResp),
    Interleaves (codeFlow Policy.default Sample.lib Sample.consentReq Sample.consentReq Sample.tokenCfg (Sample.post Sample.codeBody)) g ∧
    ContinuesShown g ∧ StoreRun Sample.webStart (g.map (·.2)) s ∧ s.infoIdPod < 2 ^ 63 ∧ (2, wrote resp) ∈ g ∧ resp.status = 200 ∧
    Sample.consentReq.formValue b!"code_verifier" ≠ [] := by
  let ths : Nat → Prog Unit := fun
    | 0 => Sample.closed (handleRequest Policy.default Sample.lib Sample.consentReq) id
    | 1 => Sample.closed (completeRequest Policy.default Sample.lib Sample.consentReq) id
    | 2 => handler Sample.tokenCfg Sample.lib (Sample.post Sample.codeBody)
    | _ => .ret ()
  have hch := schedule_chain Sample.webDet_step Sample.webSchedule ths (Sample.webStart, none)
  obtain ⟨resp, hw, h200⟩ := answered_mem (g := (schedule Sample.webDet Sample.webSchedule ths (Sample.webStart, none)).1)
    (i := 2) (n := 200) (by decide +kernel)
  refine ⟨_, _, resp, ?_, Sample.web_continuesShown (s' := (schedule Sample.webDet Sample.webSchedule ths (Sample.webStart, none)).2.1)
    (o := (schedule Sample.webDet Sample.webSchedule ths (Sample.webStart, none)).2.2) hch, Sample.web_store hch, by decide +kernel, hw, h200,
    by decide +kernel⟩
  intro i
  have h := schedule_interleaves Sample.webDet Sample.webSchedule ths (Sample.webStart, none) i
  match i with
  | 0 => exact Sample.closed_steps h
  | 1 => exact Sample.closed_steps h
  | 2 => exact h
  | _ + 3 => exact h

/-- Requests that differ in the challenge only: with and without. -/
example : DifferIn [b!"code_challenge", b!"code_challenge_method"] rfcReq { rfcReq with query := rfcReq.query.take 6 } ∧
    rfcReq.formValue b!"code_challenge" ≠ [] ∧
    ({ rfcReq with query := rfcReq.query.take 6 } : Req).formValue b!"code_challenge" = [] :=
  ⟨⟨rfl, rfl, rfl, rfl, rfl, by decide +kernel⟩, by decide +kernel, by decide +kernel⟩

/-- Exchanges that differ in the verifier only, both granted. -/
example : DifferIn [b!"code_verifier"] (Sample.post Sample.codeBody) (Sample.post ((b!"code_verifier", b!"x") :: Sample.codeBody)) ∧
    ({} : Sample.World).status (handler Sample.tokenCfg Sample.lib (Sample.post ((b!"code_verifier", b!"x") :: Sample.codeBody))) =
      some 200 :=
  ⟨⟨rfl, rfl, rfl, rfl, by decide +kernel, rfl⟩, by decide +kernel⟩

end Goidc.Props
