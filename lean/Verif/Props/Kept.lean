import Verif.Spec.Kept
import Verif.Props.Lines

/-! # C112: no answer is kept for somebody else -/

namespace Goidc.Props

open Spec

variable {lib : Lib} {r : Req} {policy : Policy} {t : List Event} {resp : HttpResp}

/-- A response is not kept. -/
def FreshWrite : Query → Prop
  | .write resp => NotKept resp
  | _ => True

theorem fresh_issue : ∀ q : Query, q.issues = true → FreshWrite q := by
  intro q hq; cases q <;> first | trivial | simp [Query.issues] at hq

theorem fresh_other : ∀ q : Query, q.isOutput = false → FreshWrite q := by
  intro q hq; cases q <;> first | trivial | simp [Query.isOutput] at hq

theorem notKept_redirect {u : GoStr} : NotKept (AuthResponse.redirectResp r u) := by
  refine .inr ⟨by simp only [AuthResponse.redirectResp]; decide, fun kv hkv => ?_⟩
  unfold AuthResponse.redirectResp at hkv
  rcases List.mem_cons.1 hkv with rfl | hkv
  · show toLower b!"Location" ∉ freshnessHeaders
    decide
  · split at hkv
    · obtain rfl := List.mem_singleton.1 hkv
      decide
    · cases hkv

theorem fresh_redirectTo {ty uri ps} : AllQ FreshWrite (AuthResponse.redirectTo lib r ty uri ps) := by
  refine allQ_of_runs fun t o h e he => ?_
  rcases redirectTo_runs h with ⟨_, rfl, _⟩ | ⟨_, hu, c, rfl, hc⟩
  · simp at he
  · obtain rfl := List.mem_singleton.1 he
    exact notKept_redirect

theorem notKept_form (doc : GoStr) : NotKept (AuthResponse.formResp doc) := by
  refine .inl ⟨b!"no-cache, no-store", by simp [AuthResponse.formResp], .inr rfl, fun v' h => ?_⟩
  simp only [AuthResponse.formResp, List.mem_cons, Prod.mk.injEq, List.not_mem_nil, or_false] at h
  rcases h with ⟨h, _⟩ | ⟨_, h⟩ | ⟨h, _⟩
  · exact absurd h (by decide)
  · exact h
  · exact absurd h (by decide)

theorem fresh_front {uri} : FrontQ FreshWrite lib r uri where
  log _ _ _ := trivial
  send mode ps := by
    unfold AuthResponse.success
    split
    · exact fresh_redirectTo
    split
    · exact fresh_redirectTo
    split
    · exact allQ_bind' (allQ_ask trivial) fun _ => allQ_ask (notKept_form _)
    · exact fresh_redirectTo
  other q hq _ := fresh_other q hq

/-- C112: no cache keeps a response of the authorization endpoint: not to an authorization request, nor to one that
is completed or cancelled. -/
theorem C112_authorization (h : Steps (AuthzEndpoint.handleRequest policy lib r) t ∨
      Steps (AuthzEndpoint.completeRequest policy lib r) t ∨ Steps (AuthzEndpoint.cancelRequest lib r) t)
    (hw : wrote resp ∈ t) : NotKept resp := by
  rcases h with h | h | h
  · exact allQ_steps (fresh_front.handleRequest fresh_issue) h _ hw
  · exact frontQ_complete (P := FreshWrite) fresh_issue h trivial (fun _ _ _ => trivial) (fun _ _ => fresh_front) _ hw
  · exact frontQ_cancel (P := FreshWrite) h trivial (fun _ _ _ => trivial) (fun _ _ => fresh_front) _ hw

theorem notKept_common {n : Nat} {extra : Params} {body : GoStr} (he : ∀ kv ∈ extra, kv.1 ≠ b!"Cache-Control") :
    NotKept ⟨n, extra ++ TokenEndpoint.commonHeaders, body⟩ := by
  refine .inl ⟨b!"no-store", ?_, .inl rfl, fun v' h => ?_⟩
  · exact List.mem_append_right _ (by decide)
  · rcases List.mem_append.1 h with h | h
    · exact absurd rfl (he _ h)
    · simp only [TokenEndpoint.commonHeaders, List.mem_cons, Prod.mk.injEq, List.not_mem_nil, or_false] at h
      rcases h with ⟨_, h⟩ | ⟨h, _⟩ | ⟨h, _⟩
      · exact h
      all_goals exact absurd h (by decide)

/-- C112: no cache keeps a response of the token endpoint to a POST; what answers other methods is empty. -/
theorem C112_token {cfg : TokenCfg} (hb : AllBuiltIn lib cfg) (h : Steps (TokenEndpoint.handler cfg lib r) t)
    (hw : wrote resp ∈ t) : NotKept resp ∨ (r.method ≠ b!"POST" ∧ resp.body = [] ∧ resp.headers = []) := by
  by_cases hm : r.method = b!"POST"
  · refine .inl ?_
    cases tokenWrite hb h hw hm with
    | granted res => exact notKept_common (extra := []) (by simp)
    | failed he => exact notKept_common (extra := []) (by simp)
    | challenge => exact notKept_common (extra := [_]) (by simp)
  · refine .inr ⟨hm, ?_⟩
    have ha : AllQ (fun q => ∀ x, q = .write x → x.body = [] ∧ x.headers = []) (TokenEndpoint.handler cfg lib r) := by
      unfold TokenEndpoint.handler
      rw [if_pos hm]
      refine allQ_bind (allQ_ask (by simp)) fun _ => allQ_ask ?_
      rintro x ⟨⟩
      exact ⟨rfl, rfl⟩
    exact allQ_steps ha h _ hw _ rfl

/-- C112: no cache keeps a refusal of the resource protector. -/
theorem C112_protector {cfg : ProtectorCfg} {scopes : List (GoStr × List GoStr)}
    (h : Steps (ResourceProtector.validate cfg lib r) t ∨ Steps (ResourceProtector.validateWithScopes cfg lib r scopes) t)
    (hw : wrote resp ∈ t) : NotKept resp := by
  have := protQ (P := FreshWrite) (lib := lib) (r := r) (cfg := cfg) (fun _ _ _ _ _ => trivial) (fun e => allQ_ask ?_)
    (allQ_ask (.inr ⟨by decide, by simp⟩)) fresh_other scopes
  · rcases h with h | h
    · exact allQ_steps this.1 h _ hw
    · exact allQ_steps this.2 h _ hw
  · refine .inr ⟨?_, fun kv hkv => ?_⟩
    · show e.statusCode ∉ cacheableStatus
      unfold OAuthError.statusCode
      cases e.type <;> first | decide | (show 500 ∉ cacheableStatus; decide)
    · obtain rfl := List.mem_singleton.1 hkv
      show toLower b!"WWW-Authenticate" ∉ freshnessHeaders
      decide

/-- There are such responses: a redirect, a form, tokens and a refusal. -/
example : consentedWorld.status (AuthzEndpoint.handleRequest .default Sample.lib codeGet) = some 302 ∧
    ({} : Sample.World).status (TokenEndpoint.handler Sample.tokenCfg Sample.lib (Sample.post Sample.codeBody)) = some 200 ∧
    ¬ NotKept ⟨200, [], []⟩ ∧ ¬ NotKept ⟨302, [(b!"Cache-Control", b!"public")], []⟩ := by
  refine ⟨by decide +kernel, by decide +kernel, ?_, ?_⟩
  · rintro (⟨v, h, _⟩ | ⟨h, _⟩)
    · cases h
    · exact h (by decide)
  · rintro (⟨v, h, h', _⟩ | ⟨_, h⟩)
    · obtain ⟨_, rfl⟩ := Prod.mk.inj (List.mem_singleton.1 h)
      exact absurd h' (by decide)
    · exact h _ (List.mem_singleton.2 rfl) (by decide)

end Goidc.Props
