import Verif.Spec.TokenScope
import Verif.Props.EndToEnd

/-! # C111: the scope an access token stands for -/

namespace Goidc.Props

open Spec TokenEndpoint AuthzEndpoint ResourceProtector StoreState

/-- The authorizations in the store are what was recorded last, one for each user and client. -/
structure LastKept (t : List Event) (s : StoreState) : Prop where
  one : ∀ i ∈ s.infos, ∀ j ∈ s.infos, i.userId = j.userId → i.clientId = j.clientId → i = j
  last : ∀ i ∈ s.infos, LastAuthorized t i.userId i.clientId i.scope

theorem lastAuthorized_more {t : List Event} {e : Event} {uid : Int64} {cid sc : GoStr} (h : LastAuthorized t uid cid sc)
    (he : ∀ sc' rr', e ≠ ⟨.createOrUpdateAuthInfo uid cid sc', rr'⟩) : LastAuthorized (t ++ [e]) uid cid sc := by
  obtain ⟨a, b, rr, rfl, hb⟩ := h
  refine ⟨a, b ++ [e], rr, by simp, fun sc' rr' hm => ?_⟩
  rcases List.mem_append.1 hm with hm | hm
  · exact hb _ _ hm
  · exact he sc' rr' (List.mem_singleton.1 hm).symm

theorem lastKept_step {t : List Event} {s s' : StoreState} {e : Event} (hs : LastKept t s) (h : s.Answers e s') :
    LastKept (t ++ [e]) s' := by
  have other : ∀ {s' : StoreState}, s'.infos = s.infos → (∀ uid cid sc rr, e ≠ ⟨.createOrUpdateAuthInfo uid cid sc, rr⟩) →
      LastKept (t ++ [e]) s' := by
    intro s' hi he
    refine ⟨by rw [hi]; exact hs.one, fun i hm => ?_⟩
    rw [hi] at hm
    exact lastAuthorized_more (hs.last i hm) fun sc' rr' => he _ _ _ _
  have set : ∀ {s' : StoreState} {x : AuthInfo} {uid : Int64} {cid sc : GoStr} {rr}, s'.infos = x :: s.infos.filter (·.id ≠ x.id) →
      e = ⟨.createOrUpdateAuthInfo uid cid sc, rr⟩ → x.userId = uid → x.clientId = cid → x.scope = sc →
      (∀ j ∈ s.infos, j.userId = uid → j.clientId = cid → j.id = x.id) → LastKept (t ++ [e]) s' := by
    intro s' x uid cid sc rr hi he hu hc hsc hj
    have hne : ∀ j ∈ s.infos, j.id ≠ x.id → ¬ (j.userId = x.userId ∧ j.clientId = x.clientId) := by
      rintro j hm hn ⟨h1, h2⟩
      exact hn (hj j hm (h1.trans hu) (h2.trans hc))
    constructor
    · intro i hm j hm' h1 h2
      rw [hi] at hm hm'
      simp only [List.mem_cons, List.mem_filter, decide_eq_true_eq] at hm hm'
      rcases hm with rfl | ⟨hm, hn⟩ <;> rcases hm' with rfl | ⟨hm', hn'⟩
      · rfl
      · exact absurd ⟨h1.symm, h2.symm⟩ (hne j hm' hn')
      · exact absurd ⟨h1, h2⟩ (hne i hm hn)
      · exact hs.one i hm j hm' h1 h2
    · intro i hm
      rw [hi] at hm
      simp only [List.mem_cons, List.mem_filter, decide_eq_true_eq] at hm
      rcases hm with rfl | ⟨hm, hn⟩
      · rw [hu, hc, hsc]
        exact ⟨t, [], rr, by rw [he], by simp⟩
      · refine lastAuthorized_more (hs.last i hm) fun sc' rr' he' => hne i hm hn ?_
        rw [he] at he'
        cases he'
        exact ⟨hu.symm, hc.symm⟩
  cases hw : e.q.isStoreWrite with
  | false =>
    rw [answers_read h hw]
    refine other rfl ?_
    rintro uid cid sc rr rfl
    cases hw
  | true =>
    obtain ⟨q, r⟩ := e
    unfold Answers at h
    cases q <;> simp only [Query.isStoreWrite, Bool.false_eq_true] at hw <;> simp only [step] at h
    case createAuthSession info y =>
      cases info with
      | none => exact h.elim
      | some info => obtain ⟨_, rfl⟩ := h; exact other rfl (by rintro _ _ _ _ ⟨⟩)
    case disableSession y => obtain ⟨_, rfl⟩ := h; exact other rfl (by rintro _ _ _ _ ⟨⟩)
    case createOAuthToken info b =>
      cases info with
      | none => exact h.elim
      | some info => obtain ⟨n1, n2, _, rfl⟩ := h; exact other rfl (by rintro _ _ _ _ ⟨⟩)
    case refreshAccessToken info old =>
      obtain ⟨t, n, ht, _, rfl⟩ := h; exact other rfl (by rintro _ _ _ _ ⟨⟩)
    case createOrUpdateAuthInfo uid cid sc =>
      rcases h with ⟨i, hi, hu, hc, _, rfl⟩ | ⟨hno, _, rfl⟩
      · exact set (x := updInfo i uid sc) rfl rfl hu hc rfl fun j hj h1 h2 => by
          rw [hs.one j hj i hi (h1.trans hu.symm) (h2.trans hc.symm)]; rfl
      · exact set (x := newInfo (Int64.ofNat s.infoIdPod) uid cid sc) rfl rfl rfl rfl rfl fun j hj h1 h2 =>
          absurd ⟨h1, h2⟩ (hno j hj)

theorem lastKept_run {t t' : List Event} {s s' : StoreState} (hs : LastKept t s) (h : StoreRun s t' s') : LastKept (t ++ t') s' := by
  induction h generalizing t with
  | nil => simpa using hs
  | cons h1 _ ih => simpa using ih (lastKept_step hs h1)

/-- C111, what holds: an access token stands for the scope the user authorized the client for last.  Over the reference store, a
protected request that is admitted carries the user, client and scope of the last authorization of that user and that client
before the request looked it up. -/
theorem C111_last_partial {users : List TestUser} {clients : List Client} {g : List (Nat × Event)} {s : StoreState} {j : Nat}
    {cfg : ProtectorCfg} {lib : Lib} {r r' : Req} (hs : StoreRun (StoreState.init users clients) (g.map (·.2)) s)
    (h : Runs (validate cfg lib r) (callsOf j g) (.ok (true, r'))) :
    ∃ (uid : Int64) (cid sc : GoStr) (id : Int64) (info : AuthInfo) (a b : List (Nat × Event)),
      headerValues r' b!"X-OAUTH-USER-ID" = [itoa uid] ∧ headerValues r' b!"X-OAUTH-CLIENT-ID" = [cid] ∧
      headerValues r' b!"X-OAUTH-SCOPE" = [sc] ∧ g = a ++ (j, ⟨.findActiveAuthInfoById id, (some info, none)⟩) :: b ∧
      LastAuthorized (a.map (·.2)) uid cid sc := by
  obtain ⟨tok, atk, now, info, ht, h1, h2, h3⟩ := C26_identity h
  have hm : (j, (⟨.findActiveAuthInfoById atk.authId, (some info, none)⟩ : Event)) ∈ g := mem_callsOf.1 (by rw [ht]; simp)
  obtain ⟨a, b, rfl⟩ := List.append_of_mem hm
  refine ⟨_, _, _, _, info, a, b, h1, h2, h3, rfl, ?_⟩
  rw [List.map_append, List.map_cons] at hs
  obtain ⟨m, m', hr, ha, _⟩ := run_at hs
  have hl := lastKept_run (t := []) (s := StoreState.init users clients) ⟨by simp [init], by simp [init]⟩ hr
  rw [List.nil_append] at hl
  exact hl.last info (info_mem (answer_some ha.1.symm)).1

/-! ## The full statement is false -/

/-- A second authorization request of the client, for another scope. -/
def widerReq : Req :=
  { Sample.consentReq with query := [(b!"client_id", b!"client"), (b!"redirect_uri", b!"https://app/cb"), (b!"response_type", b!"code"),
    (b!"scope", b!"openid admin"), (b!"prompt", b!"consent"), (b!"nonce", b!"n")] }

/-- Consent, code, token; then consent to another scope, whose code is not used; then the token is used. -/
def widerThreads : Nat → Prog Unit
  | 0 => Sample.closed (handleRequest Policy.default Sample.lib Sample.consentReq) id
  | 1 => Sample.closed (completeRequest Policy.default Sample.lib Sample.consentReq) id
  | 2 => handler Sample.tokenCfg Sample.lib (Sample.post Sample.codeBody)
  | 3 => Sample.closed (handleRequest Policy.default Sample.lib widerReq) id
  | 4 => Sample.closed (completeRequest Policy.default Sample.lib widerReq) id
  | 5 => Sample.closed (validate Sample.protectorCfg Sample.lib Sample.bearerReq) fun x =>
      x.1 && (x.2.header b!"X-OAUTH-SCOPE" == b!"openid admin")
  | _ => .ret ()

def widerEndpoints : Nat → Thread
  | 0 => ⟨handleRequest Policy.default Sample.lib Sample.consentReq⟩
  | 1 => ⟨completeRequest Policy.default Sample.lib Sample.consentReq⟩
  | 2 => ⟨handler Sample.tokenCfg Sample.lib (Sample.post Sample.codeBody)⟩
  | 3 => ⟨handleRequest Policy.default Sample.lib widerReq⟩
  | 4 => ⟨completeRequest Policy.default Sample.lib widerReq⟩
  | 5 => ⟨validate Sample.protectorCfg Sample.lib Sample.bearerReq⟩
  | _ => ⟨(.ret () : Prog Unit)⟩

def widerSchedule : List Nat := [0, 1, 2, 3, 4, 5].flatMap (List.replicate 20)

def widerRun : List (Nat × Event) × (StoreState × Option Request) :=
  schedule Sample.webDet widerSchedule widerThreads (Sample.webStart, none)

theorem wider_interleaves : Interleaves widerEndpoints widerRun.1 := by
  intro i
  have h := schedule_interleaves Sample.webDet widerSchedule widerThreads (Sample.webStart, none) i
  match i with
  | 0 => exact Sample.closed_steps h
  | 1 => exact Sample.closed_steps h
  | 2 => exact h
  | 3 => exact Sample.closed_steps h
  | 4 => exact Sample.closed_steps h
  | 5 => exact Sample.closed_steps h
  | _ + 6 => exact h

theorem wider_chain : Chain Sample.Web (Sample.webStart, none) (widerRun.1.map (·.2)) widerRun.2 :=
  schedule_chain Sample.webDet_step widerSchedule widerThreads (Sample.webStart, none)

theorem wider_admitted : ∃ r', Runs (validate Sample.protectorCfg Sample.lib Sample.bearerReq) (callsOf 5 widerRun.1) (.ok (true, r')) ∧
    r'.header b!"X-OAUTH-SCOPE" = b!"openid admin" := by
  have h := Sample.remaining_runs Sample.webDet widerSchedule widerThreads (Sample.webStart, none) 5 (Sample.over_runs (by decide +kernel))
  rw [List.append_nil] at h
  obtain ⟨⟨b, r'⟩, h1, h2⟩ := Sample.closed_runs h
  simp only [Bool.and_eq_true, beq_iff_eq] at h2
  obtain ⟨rfl, h2⟩ := h2
  exact ⟨r', h1, h2⟩

/-- The token response of the first exchange. -/
def firstToken : Response :=
  ⟨b!"Bearer", b!"ACCESS_TOKEN_0", 86400, b!"REFRESH_TOKEN_0", b!"openid offline_access email", b!"signed"⟩

theorem wider_token : ∃ resp, (2, wrote resp) ∈ widerRun.1 ∧ resp.status = 200 ∧ resp.body = firstToken.json := by
  have h : widerRun.1.any (fun x => x.1 == 2 && match x.2.q with
      | .write resp => resp.status == 200 && resp.body == firstToken.json
      | _ => false) = true := by decide +kernel
  obtain ⟨⟨j, q, x⟩, hm, h'⟩ := List.any_eq_true.1 h
  cases q <;> simp at h'
  obtain ⟨rfl, h1, h2⟩ := h'
  exact ⟨_, hm, h1, h2⟩

/-- The token is issued to the first exchange only. -/
theorem wider_issued : ∀ k e tk, (k, e) ∈ widerRun.1 → Issues tk e → tk.accessToken = firstToken.accessToken → k = 2 := by
  have h : widerRun.1.all (fun x => x.1 == 2 || match x.2.q with
      | .createOAuthToken _ _ => false
      | .refreshAccessToken _ _ => false
      | _ => true) = true := by decide +kernel
  intro k e tk hm hi _
  have := List.all_eq_true.1 h _ hm
  cases hi <;> simpa using this

theorem wider_endpoints : ∀ i, Endpoint (widerEndpoints i) := by
  intro i
  match i with
  | 0 => exact .authorize
  | 1 => exact .complete
  | 2 => exact .token sample_allBuiltIn
  | 3 => exact .authorize
  | 4 => exact .complete
  | 5 => exact .protect
  | _ + 6 => exact .idle

/-- C111 is false: a token issued for one scope is admitted with another one, as soon as the user has consented to it for the
same client, though nobody was given a new token. -/
theorem C111_false : ¬ KeepsScope := by
  intro h
  obtain ⟨resp, hw, h200, hbody⟩ := wider_token
  obtain ⟨r', hr, hsc⟩ := wider_admitted
  have hv := h _ _ widerEndpoints widerRun.1 _ 2 5 _ _ _ resp firstToken _ _ _ r' wider_endpoints wider_interleaves
    (Sample.web_continuesShown (s' := widerRun.2.1) (o := widerRun.2.2) wider_chain) (Sample.web_store wider_chain) rfl
    sample_allBuiltIn hw h200 hbody wider_issued hr (find_iff.1 ⟨by decide +kernel, by decide⟩)
  rw [C56_user_id.header_of_values hv] at hsc
  exact absurd hsc (by decide)

/-- The hypotheses of `C111_last_partial` are met. -/
example : StoreRun Sample.webStart (widerRun.1.map (·.2)) widerRun.2.1 ∧
    ∃ r', Runs (validate Sample.protectorCfg Sample.lib Sample.bearerReq) (callsOf 5 widerRun.1) (.ok (true, r')) :=
  ⟨Sample.web_store wider_chain, wider_admitted.imp fun _ h => h.1⟩

end Goidc.Props
