import Verif.Props.Confine
import Verif.Props.Refusals
import Verif.Lemmas.EndToEndSample

/-! # C89: a replaced access token is dead -/

namespace Goidc.Props

open Spec TokenEndpoint AuthzEndpoint ResourceProtector StoreState

variable {ths : Nat → Thread} {g a b c : List (Nat × Event)} {k k' : Nat}

/-- An access token that is not stored stays away until one of that name is handed out. -/
theorem absent_step {s s' : StoreState} {e : Event} {x : GoStr} (h : s.Answers e s') (hx : s.token x = none)
    (hi : ∀ tk, Issues tk e → tk.accessToken ≠ x) : s'.token x = none := by
  have hset : ∀ {m : StoreState} {t : OAuthToken}, m.token x = none → t.accessToken ≠ x → (m.setToken t).token x = none :=
    fun hm ht => by rw [token_set_ne _ (Ne.symm ht)]; exact hm
  cases hw : e.q.isStoreWrite with
  | false => rw [answers_read h hw]; exact hx
  | true =>
    obtain ⟨q, r⟩ := e
    unfold Answers at h
    cases q <;> simp only [Query.isStoreWrite, Bool.false_eq_true] at hw <;> simp only [step] at h
    case createOrUpdateAuthInfo =>
      rcases h with ⟨_, _, _, _, _, rfl⟩ | ⟨_, _, rfl⟩ <;> exact hx
    case createAuthSession info y =>
      cases info with
      | none => exact h.elim
      | some i => obtain ⟨_, rfl⟩ := h; exact hx
    case disableSession y => obtain ⟨_, rfl⟩ := h; exact hx
    case createOAuthToken info f =>
      cases info with
      | none => exact h.elim
      | some i =>
        obtain ⟨n1, n2, rfl, rfl⟩ := h
        exact hset hx (hi _ (.created i f))
    case refreshAccessToken i old =>
      obtain ⟨t, n, ht, rfl, rfl⟩ := h
      refine hset ?_ (hi _ (.refreshed i old))
      by_cases hk : x = old.accessToken
      · subst hk; exact token_delete_self s _
      · rw [token_delete_ne s hk]; exact hx

theorem absent_run {s s' : StoreState} {t : List (Nat × Event)} {x : GoStr} (h : StoreRun s (t.map (·.2)) s') (hx : s.token x = none)
    (hi : NotIssued t x) : s'.token x = none := by
  induction t generalizing s with
  | nil => cases h; exact hx
  | cons y t ih =>
    rw [List.map_cons] at h
    cases h with
    | cons h1 h2 =>
      exact ih h2 (absent_step h1 hx fun tk hiss => hi y.1 y.2 tk (by simp) hiss) fun k e tk hm hiss =>
        hi k e tk (List.mem_cons_of_mem _ hm) hiss

/-- Replacing an access token takes it away. -/
theorem replaced_gone {s s' : StoreState} {i : AuthInfo} {old tk : OAuthToken}
    (h : s.Answers ⟨.refreshAccessToken i old, (some tk, none)⟩ s') : s'.token old.accessToken = none := by
  obtain ⟨t, n, ht, _, rfl⟩ := h
  rw [token_set_ne]
  · exact token_delete_self s _
  · intro he
    have := congrArg List.length he
    simp only [refreshed, List.length_append, (token_mem ht).2] at this
    simp at this

/-- C89: on the reference store, in every interleaving of any requests: once the store has replaced an access token by a
refreshed one, every protected request that presents the old one is refused with 401, unless the store hands
out a token of that name again. -/
theorem C89_replaced {s0 s : StoreState} (hrun : StoreRun s0 (g.map (·.2)) s) {i : AuthInfo} {old tk : OAuthToken}
    (hs : g = a ++ (k, ⟨.refreshAccessToken i old, (some tk, none)⟩) :: b) (hno : NotIssued b old.accessToken)
    {j : Nat} (hj : ∀ e, (j, e) ∉ a) (hjk : j ≠ k) {cfg : ProtectorCfg} {lib : Lib} {r : Req} {o : Outcome (Bool × Req)}
    (h : Runs (validate cfg lib r) (callsOf j g) o) (hb : BearerToken cfg.acceptance r old.accessToken) :
    ∃ r' resp, o = .ok (false, r') ∧ WroteOne (callsOf j g) resp ∧ resp.status = 401 := by
  rw [hs, List.map_append, List.map_cons] at hrun
  obtain ⟨m, m', _, hans, hrest⟩ := run_at hrun
  have hgone := replaced_gone hans
  have hcalls : callsOf j g = callsOf j b := by
    have ha : callsOf j a = [] := by
      cases hc : callsOf j a with
      | nil => rfl
      | cons e t => exact absurd (mem_callsOf.1 (hc ▸ List.mem_cons_self)) (hj e)
    rw [hs, callsOf_append, ha, callsOf_cons_ne (Ne.symm hjk), List.nil_append]
  rw [hcalls] at h ⊢
  -- what the lookup answers
  have hlook : ∀ x, (⟨.findOAuthTokenByAccessToken old.accessToken, x⟩ : Event) ∈ callsOf j b → x = (none, some .failed) := by
    intro x hm
    obtain ⟨b1, b2, rfl⟩ := List.append_of_mem (mem_callsOf.1 hm)
    rw [List.map_append, List.map_cons] at hrest
    obtain ⟨m1, m2, hr1, ha, _⟩ := run_at hrest
    have := absent_run hr1 hgone fun k e tk hm hi => hno k e tk (by simp [hm]) hi
    have h' : x = answer (m1.token old.accessToken) := ha.1
    rw [h', this]
    rfl
  have hout : ∃ r', o = .ok (false, r') := by
    obtain ⟨hf, hne⟩ := find_iff.2 hb
    unfold validate at h
    dsimp only at h
    rw [if_neg (by rw [hf]; exact hne), hf, Prog.bind_eq, runs_bind_ask] at h
    obtain ⟨x, t, ht, h⟩ := h
    obtain rfl := hlook x (by rw [ht]; simp)
    dsimp only at h
    rw [Prog.bind_eq, runs_bind] at h
    rcases h with ⟨_, t1, t2, rfl, h1, h2⟩ | ⟨h, _⟩
    · rw [Prog.bind_eq, runs_bind] at h2
      rcases h2 with ⟨_, t3, t4, rfl, h3, h4⟩ | ⟨h, _⟩
      · exact ⟨_, h4.2⟩
      · obtain ⟨_, _, _, h⟩ := h; cases h.2
    · obtain ⟨_, _, _, h⟩ := h; cases h.2
  obtain ⟨r', rfl⟩ := hout
  obtain ⟨v, resp, hv, hw, _, _, _, h401, _⟩ := C69_reason h
  refine ⟨r', resp, rfl, hw, ?_⟩
  have same : ∀ {tok}, BearerToken cfg.acceptance r tok → tok = old.accessToken := fun hb' =>
    (find_iff.2 hb').1.symm.trans (find_iff.2 hb).1
  have first : ∀ {tok x rest}, BearerToken cfg.acceptance r tok →
      lookups (callsOf j b) = ⟨.findOAuthTokenByAccessToken tok, x⟩ :: rest → x = (none, some .failed) := by
    intro tok x rest hb' he
    obtain rfl := same hb'
    exact hlook x (List.mem_filter.1 (he ▸ List.mem_cons_self)).1
  generalize hl : lookups (callsOf j b) = l at hv
  rw [hl] at first
  cases hv with
  | noToken hn => exact absurd hb (hn _)
  | unknown _ _ => exact h401 _ rfl
  | lookupBroke hb' h1 _ => exact absurd (by rw [first hb' rfl]; rfl) h1
  | expired hb' _ => cases first hb' rfl
  | inactive hb' _ _ => cases first hb' rfl
  | infoBroke hb' _ _ _ => cases first hb' rfl

/-- C89: on the reference store an access token is replaced at most once, unless the store hands out a token of that
name in between. -/
theorem C89_once {s0 s : StoreState} (hrun : StoreRun s0 (g.map (·.2)) s) {i i' : AuthInfo} {old old' tk tk' : OAuthToken}
    (hs : g = a ++ (k, ⟨.refreshAccessToken i old, (some tk, none)⟩) :: b ++
      (k', ⟨.refreshAccessToken i' old', (some tk', none)⟩) :: c)
    (hno : NotIssued b old.accessToken) : old.accessToken ≠ old'.accessToken := by
  rw [hs, List.map_append, List.map_append, List.map_cons, List.map_cons] at hrun
  obtain ⟨m, m', h1, ⟨t, _, ht, _⟩, _⟩ := run_at hrun
  obtain ⟨m1, m2, _, h2, h3⟩ := run_at h1
  have := absent_run h3 (replaced_gone h2) hno
  intro he
  rw [he, ht] at this
  cases this

/-! ## A case: a token is obtained, refreshed, presented in its old form, and refreshed again -/

/-- Split a list of calls at the first replaced access token. -/
def atRefresh : List (Nat × Event) → Option (List (Nat × Event) × (Nat × AuthInfo × OAuthToken × OAuthToken) × List (Nat × Event))
  | [] => none
  | (k, ⟨.refreshAccessToken i old, (some tk, none)⟩) :: t => some ([], (k, i, old, tk), t)
  | x :: t => (atRefresh t).map fun y => (x :: y.1, y.2)

theorem atRefresh_eq {g a b : List (Nat × Event)} {k : Nat} {i : AuthInfo} {old tk : OAuthToken}
    (h : atRefresh g = some (a, (k, i, old, tk), b)) : g = a ++ (k, ⟨.refreshAccessToken i old, (some tk, none)⟩) :: b := by
  induction g generalizing a with
  | nil => cases h
  | cons x t ih =>
    unfold atRefresh at h
    split at h
    · rename_i heq; cases heq
    · rename_i heq
      simp only [List.cons.injEq] at heq
      obtain ⟨rfl, rfl⟩ := heq
      simp only [Option.some.injEq, Prod.mk.injEq] at h
      obtain ⟨rfl, ⟨rfl, rfl, rfl, rfl⟩, rfl⟩ := h
      rfl
    · rename_i heq
      simp only [List.cons.injEq] at heq
      obtain ⟨rfl, rfl⟩ := heq
      cases hr : atRefresh t with
      | none => rw [hr] at h; cases h
      | some y =>
        rw [hr] at h
        obtain ⟨a', b'⟩ := y
        simp only [Option.map_some, Option.some.injEq, Prod.mk.injEq] at h
        obtain ⟨rfl, rfl⟩ := h
        rw [ih hr]; rfl

/-- The access token a call hands out. -/
def handedOut : Event → Option GoStr
  | ⟨.createOAuthToken _ _, (some tk, none)⟩ => some tk.accessToken
  | ⟨.refreshAccessToken _ _, (some tk, none)⟩ => some tk.accessToken
  | _ => none

theorem notIssued_of {g : List (Nat × Event)} {x : GoStr} (h : g.all (fun y => handedOut y.2 != some x) = true) : NotIssued g x := by
  intro k e tk hm hi
  have := List.all_eq_true.1 h _ hm
  cases hi <;> simpa [handedOut] using this

/-- The requests of the case. -/
def replacedThreads : Nat → Prog Unit
  | 0 => handler Sample.tokenCfg Sample.lib (Sample.post
      [(b!"grant_type", b!"password"), (b!"username", b!"u"), (b!"password", b!"p"), (b!"scope", b!"openid offline_access")])
  | 1 => handler Sample.tokenCfg Sample.lib (Sample.post Sample.rtBody)
  | 2 => Sample.closed (validate Sample.protectorCfg Sample.lib Sample.bearerReq) (fun x => !x.1)
  | 3 => handler Sample.tokenCfg Sample.lib (Sample.post Sample.rtBody)
  | _ => .ret ()

def replacedSchedule : List Nat := List.replicate 20 0 ++ List.replicate 20 1 ++ List.replicate 20 2 ++ List.replicate 20 3

def replacedRun : List (Nat × Event) × StoreState :=
  schedule (StoreState.det 1000) replacedSchedule replacedThreads Sample.webStart

/-- The presented token is refused with 401. -/
theorem replaced_sample : ∃ g a b c k k' i i' old old' tk tk' s o,
    StoreRun Sample.webStart (g.map (·.2)) s ∧
    g = a ++ (k, ⟨.refreshAccessToken i old, (some tk, none)⟩) :: (b ++
      (k', ⟨.refreshAccessToken i' old', (some tk', none)⟩) :: c) ∧
    NotIssued (b ++ (k', ⟨.refreshAccessToken i' old', (some tk', none)⟩) :: c) old.accessToken ∧
    old.accessToken = b!"ACCESS_TOKEN_0" ∧ tk.accessToken = b!"ACCESS_TOKEN_0:R" ∧ old'.accessToken = b!"ACCESS_TOKEN_0:R" ∧
    (∀ e, (2, e) ∉ a) ∧ 2 ≠ k ∧ Runs (validate Sample.protectorCfg Sample.lib Sample.bearerReq) (callsOf 2 g) o ∧
    BearerToken Sample.protectorCfg.acceptance Sample.bearerReq old.accessToken := by
  have hrun : StoreRun Sample.webStart (replacedRun.1.map (·.2)) replacedRun.2 :=
    schedule_chain (fun _ _ _ _ h => StoreState.det_step h) replacedSchedule replacedThreads Sample.webStart
  have h2 := Sample.remaining_runs (StoreState.det 1000) replacedSchedule replacedThreads Sample.webStart 2
    (Sample.over_runs (by decide +kernel))
  rw [List.append_nil] at h2
  obtain ⟨⟨_, _⟩, h2, _⟩ := Sample.closed_runs h2
  have hd : (match atRefresh replacedRun.1 with
    | some (a, (k, _, old, tk), b) => a.all (fun y => y.1 != 2) && k != 2 && b.all (fun y => handedOut y.2 != some old.accessToken) &&
        old.accessToken == b!"ACCESS_TOKEN_0" && tk.accessToken == b!"ACCESS_TOKEN_0:R" &&
        match atRefresh b with
        | some (_, (_, _, old', _), _) => old'.accessToken == b!"ACCESS_TOKEN_0:R"
        | none => false
    | none => false) = true := by decide +kernel
  have h2 : Runs (validate Sample.protectorCfg Sample.lib Sample.bearerReq) (callsOf 2 replacedRun.1) _ := h2
  generalize replacedRun.1 = g at hd h2 hrun
  split at hd
  · rename_i a k i old tk b hr
    simp only [Bool.and_eq_true] at hd
    obtain ⟨⟨⟨⟨⟨h3, h4⟩, h5⟩, h6⟩, h7⟩, h8⟩ := hd
    split at h8
    · rename_i b' k' i' old' tk' c hr'
      have hb := atRefresh_eq hr'
      refine ⟨g, a, b', c, k, k', i, i', old, old', tk, tk', _, _, hrun, by rw [← hb]; exact atRefresh_eq hr,
        by rw [← hb]; exact notIssued_of h5, eq_of_beq h6, eq_of_beq h7, eq_of_beq h8, ?_, ?_, h2, ?_⟩
      · intro e he
        simpa using List.all_eq_true.1 h3 _ he
      · intro he; subst he; simp at h4
      · rw [eq_of_beq h6]; exact find_iff.1 ⟨by decide +kernel, by decide⟩
    · cases h8
  · cases hd

end Goidc.Props
