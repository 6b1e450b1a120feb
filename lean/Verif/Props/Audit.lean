import Verif.Lemmas.AuditFail
import Verif.Props.TokenDecision

/-! # C84, C85: the log of the token endpoint -/

namespace Goidc.Props

open Spec TokenEndpoint

variable {cfg : TokenCfg} {lib : Lib} {r : Req} {kind : GrantKind} {t pre post : List Event} {o : Outcome Unit} {resp : HttpResp}

/-! ## C84: every answer is explained -/

/-- C84: right before an answer of the token endpoint the log has a line that explains it; it is filed under
`common` exactly if the request is not for a registered grant, otherwise under that grant. -/
theorem C84_explained (hk : ∀ h, Registered cfg r h → h = kind.handler lib)
    (h : Steps (handler cfg lib r) (pre ++ wrote resp :: post)) :
    ∃ pre' l e, pre = pre' ++ [logged l] ∧ Says cfg resp e ∧
      (¬ Recognized cfg r → Explains [b!"common"] (ClientIn pre) l e) ∧
      (Recognized cfg r → Explains [r.formValue b!"grant_type", kind.name] (ClientIn pre) l e) := by
  by_cases hr : Recognized cfg r
  · have h : Tells cfg [r.formValue b!"grant_type", kind.name] pre resp := by
      simpa only [List.nil_append] using aud_steps (aud_handler hk (fun hn => absurd hr hn) fun _ => ⟨by simp, by simp⟩) h
    obtain ⟨h', l, e, h1, h2, h3⟩ := h
    exact ⟨h', l, e, h1, h2, fun hn => absurd hr hn, fun _ => h3⟩
  · have h : Tells cfg [b!"common"] pre resp := by
      simpa only [List.nil_append] using aud_steps (aud_handler hk (fun _ => by simp) fun hy => absurd hy hr) h
    obtain ⟨h', l, e, h1, h2, h3⟩ := h
    exact ⟨h', l, e, h1, h2, fun _ => h3, fun hy => absurd hy hr⟩

/-- C84, for any deployment of the grants of the library. -/
theorem C84_explained_builtin (hb : AllBuiltIn lib cfg) (h : Steps (handler cfg lib r) (pre ++ wrote resp :: post)) :
    ∃ kind : GrantKind, (∀ h, Registered cfg r h → h = kind.handler lib) ∧
      ∃ pre' l e, pre = pre' ++ [logged l] ∧ Says cfg resp e ∧
      (¬ Recognized cfg r → Explains [b!"common"] (ClientIn pre) l e) ∧
      (Recognized cfg r → Explains [r.formValue b!"grant_type", kind.name] (ClientIn pre) l e) := by
  obtain ⟨kind, hk⟩ := C76_kind (r := r) hb
  exact ⟨kind, hk, C84_explained hk h⟩

/-- C84: an access token is never handed out silently. -/
theorem C84_granted (hb : AllBuiltIn lib cfg) (h : Steps (handler cfg lib r) (pre ++ wrote resp :: post))
    (hs : resp.status = 200) : ∃ pre' l id, pre = pre' ++ [logged l] ∧ l.event = .accessTokenGranted ∧
      ClientIn pre id ∧ (b!"client_id", id) ∈ l.params := by
  obtain ⟨kind, _, pre', l, e, h1, h2, h4, h5⟩ := C84_explained_builtin hb h
  have h3 : ∃ realms, Explains realms (ClientIn pre) l e := by
    by_cases hr : Recognized cfg r
    · exact ⟨_, h5 hr⟩
    · exact ⟨_, h4 hr⟩
  obtain ⟨_, h3⟩ := h3
  have he : ∃ a b d, e = .granted a b d := by
    cases e with
    | granted a b d => exact ⟨a, b, d, rfl⟩
    | wrongMethod => have h2 := h2.1; simp_all
    | challenged => have h2 := h2.1; simp_all
    | refused ty d =>
      have h2 := h2.1
      rw [hs] at h2
      split at h2 <;> cases h2
    | _ => exact absurd h2 id
  obtain ⟨a, b, d, rfl⟩ := he
  have hev : l.event = .accessTokenGranted := by simpa [reasons] using h3.event
  refine ⟨pre', l, ?_⟩
  rcases h3.client with ⟨id, k1, k2⟩ | k | k | ⟨a, k⟩
  · exact ⟨id, h1, hev, k1, k2⟩
  all_goals simp_all

/-- A granted and a refused request. -/
example : ∃ pre post resp, Steps (handler Sample.tokenCfg Sample.lib (Sample.post Sample.codeBody)) (pre ++ wrote resp :: post) ∧
    resp.status = 200 := by
  obtain ⟨pre, resp, h1, h2⟩ := Sample.World.steps
    (show ({} : Sample.World).status (handler Sample.tokenCfg Sample.lib (Sample.post Sample.codeBody)) = some 200 by decide +kernel)
  exact ⟨pre, [], resp, h1, h2⟩

example : ∃ pre post resp, Steps (handler Sample.tokenCfg Sample.lib (Sample.post Sample.refreshBody)) (pre ++ wrote resp :: post) ∧
    resp.status = 400 := by
  obtain ⟨pre, resp, h1, h2⟩ := Sample.World.steps
    (show ({ foundToken := (none, some .failed) } : Sample.World).status
      (handler Sample.tokenCfg Sample.lib (Sample.post Sample.refreshBody)) = some 400 by decide +kernel)
  exact ⟨pre, [], resp, h1, h2⟩

/-! ## C85: a failing application leaves a report -/

/-- C85: at any moment of a run, a failure of the application's data is reported by the next line of the
log, with the event and at least the level that `report` lists. -/
theorem C85_reported (hb : AllBuiltIn lib cfg) (h : Steps (handler cfg lib r) t) : Reported (fun _ _ => True) t := by
  obtain ⟨kind, hk⟩ := C76_kind (r := r) hb
  intro pre q x post k h1 h2
  refine (rep_steps (rep_handler hk) h pre q x post k h1 h2).imp id fun ⟨l, p, h3, h4, _⟩ => ⟨l, p, h3, h4, trivial⟩

/-- C85: and the line names the method that failed.  Two methods go by a wrong name. -/
theorem C85_method_partial (hb : AllBuiltIn lib cfg) (h : Steps (handler cfg lib r) t) : Reported NamesMost t := by
  obtain ⟨kind, hk⟩ := C76_kind (r := r) hb
  exact rep_steps (rep_handler hk) h

/-- C85, for complete runs, however they end: no failure goes without a report. -/
theorem C85_complete (hb : AllBuiltIn lib cfg) (h : Runs (handler cfg lib r) t o) : AllReported NamesMost t := by
  obtain ⟨kind, hk⟩ := C76_kind (r := r) hb
  exact rep_runs (rep_handler hk) h

/-- What the lines after failures name. -/
def namedAfter : List Event → List (GoStr × List GoStr)
  | e :: ⟨.log l, u⟩ :: rest =>
    (if (failure e.q e.r).isSome then [(methodName e.q, (l.params.filter (·.1 = b!"method")).map (·.2))] else []) ++
      namedAfter (⟨.log l, u⟩ :: rest)
  | _ :: e :: rest => namedAfter (e :: rest)
  | _ => []

theorem namedAfter_ok {t : List Event} (h : AllReported NamesMethod t) : ∀ p ∈ namedAfter t, p.1 ∈ p.2 := by
  fun_induction namedAfter t with
  | case1 e l u rest ih =>
    intro p hp
    rw [List.mem_append] at hp
    rcases hp with hp | hp
    · split at hp
      · rename_i hf
        simp only [List.mem_singleton] at hp
        subst hp
        obtain ⟨k, hk⟩ := Option.isSome_iff_exists.1 hf
        obtain ⟨l', post', h1, -, h2⟩ := h [] e.q e.r _ k rfl hk
        cases h1
        have h2 : (b!"method", methodName e.q) ∈ l.params := h2
        simp only [List.mem_map, List.mem_filter]
        exact ⟨_, ⟨h2, by simp⟩, rfl⟩
      · simp at hp
    · exact ih (fun pre q x post k h1 h2 => h (e :: pre) q x post k (by rw [h1]; rfl) h2) p hp
  | case2 e e' rest _ ih => exact ih fun pre q x post k h1 h2 => h (e :: pre) q x post k (by rw [h1]; rfl) h2
  | case3 => simp

/-- C85 fails as stated: a refresh token that the application does not know is reported under the name of
a method that does not exist. -/
theorem C85_method_false : ∃ (w : Sample.World) (r : Req), ¬ AllReported NamesMethod (tokenRun w r).1 := by
  refine ⟨{ foundToken := (none, some .failed) }, Sample.post Sample.refreshBody, fun h => ?_⟩
  exact absurd (namedAfter_ok h) (by decide +kernel)

/-- So does a code whose session cannot be disabled. -/
theorem C85_disable_false : ∃ (w : Sample.World) (r : Req), ¬ AllReported NamesMethod (tokenRun w r).1 := by
  refine ⟨{ disable := some .serverError }, Sample.post Sample.codeBody, fun h => ?_⟩
  exact absurd (namedAfter_ok h) (by decide +kernel)

/-- The other methods are named: the application fails to find the session. -/
example : namedAfter (tokenRun { session := (none, some .serverError) } (Sample.post Sample.codeBody)).1 =
    [(b!"FindAuthSessionByCode", [b!"FindAuthSessionByCode"])] := by decide +kernel

example : AllReported NamesMost (tokenRun { session := (none, some .serverError) } (Sample.post Sample.codeBody)).1 :=
  C85_complete sample_allBuiltIn (Sample.World.runs _ _)

end Goidc.Props
