import Verif.Spec.Revoked
import Verif.Props.Confine

/-! # C128: revoking an authorization closes every door -/

namespace Goidc.Props

open Spec TokenEndpoint ResourceProtector Grant

variable {ths : Nat → Thread} {g a b : List (Nat × Event)} {k : Nat} {id : Int64} {e : Event}

theorem callsOf_late (h : callsOf k a = []) : callsOf k (a ++ b) = callsOf k b := by
  rw [callsOf_append, h, List.nil_append]

/-- C128, token endpoint: once an authorization is revoked, no token request that starts later and presents a code or a
refresh token of it is granted. -/
theorem C128_token (hg : Interleaves ths (a ++ b)) (hrev : Revoked b id) {cfg : TokenCfg} {lib : Lib} {r : Req} {resp : HttpResp}
    (hb : AllBuiltIn lib cfg) (hk : ths k = ⟨handler cfg lib r⟩) (hlate : callsOf k a = []) (he : (k, e) ∈ b) (hid : BelongsTo id e)
    (hw : (k, wrote resp) ∈ b) : resp.status ≠ 200 := by
  intro h200
  have hgk := hg k
  rw [hk, callsOf_late hlate] at hgk
  have hek := mem_callsOf.2 he
  obtain ⟨pre, post, hsp⟩ := List.append_of_mem (mem_callsOf.2 hw)
  rw [hsp] at hgk hek
  have hs : Steps (handler cfg lib r) (pre ++ [wrote resp]) := steps_of_append (t' := post) (by simpa using hgk)
  have hsil : ∀ h, Registered cfg r h → Silent h := fun h hr => registered_silent hr (hb _ _ hr) h hr
  have hpost : post = [] := (writes_handler hsil).last hgk
  subst hpost
  have hpre : e ∈ pre := by
    rcases List.mem_append.1 hek with h | h
    · exact h
    · rw [List.mem_singleton.1 h] at hid
      cases hid
  have hdata : e.q.isData = true := by cases hid <;> rfl
  have hnot : ¬ IsAuthCall e.q := by cases hid <;> exact fun h => h
  obtain ⟨_, _, hf, _, _, _, _, _, hreg, _⟩ := token_200 hsil hs h200
  obtain ⟨c, auth, now, t2, res, _, hauth, _, hsub, hok, hd, _⟩ := grant_200 hreg (hb _ _ hreg) hs h200
  have het : e ∈ t2 := by
    have : e ∈ dataCalls pre := (mem_dataCalls hdata).2 hpre
    rw [hd] at this
    rcases List.mem_append.1 this with h | h
    · exact absurd h (mem_auth_absurd hauth hnot)
    · exact (mem_dataCalls hdata).1 h
  have hact : ∀ {i info}, ⟨.findActiveAuthInfoById i, (some info, none)⟩ ∈ t2 → i ≠ id := by
    rintro i info hm rfl
    refine hrev k info (mem_callsOf.1 ?_)
    rw [hsp]
    exact List.mem_append_left _ (hsub _ hm)
  cases hb _ _ hreg with
  | authorizationCode =>
    obtain ⟨sess, info, tk, tid, _, _, rfl, _, _, _, hidt⟩ := authorizationCode_ok hok
    have htid : ∀ e ∈ tid, ¬ BelongsTo id e := by
      rcases hidt with ⟨_, _, _, rfl, _⟩ | ⟨_, rfl, _⟩
      · intro e he hx
        simp only [List.mem_cons, List.not_mem_nil, or_false] at he
        rcases he with rfl | rfl <;> cases hx
      · simp
    rcases List.mem_append.1 het with h | h
    · simp only [List.mem_cons, List.not_mem_nil, or_false] at h
      rcases h with rfl | rfl | rfl | rfl
      · cases hid with | code _ _ h' => exact hact (List.mem_append_left _ (List.mem_cons_of_mem _ List.mem_cons_self)) h'
      all_goals cases hid
    · exact htid _ h hid
  | refreshToken =>
    obtain ⟨old, info, tk, _, rfl, _⟩ := refreshToken_ok hok
    simp only [List.mem_cons, List.not_mem_nil, or_false] at het
    rcases het with rfl | rfl | rfl
    · cases hid with | refresh _ _ h => exact hact (List.mem_cons_of_mem _ List.mem_cons_self) h
    all_goals cases hid
  | password =>
    obtain ⟨uid, info, tk, _, _, _, rfl, _⟩ := password_ok hok
    cases hid <;> simp at het
  | clientCredentials =>
    obtain ⟨info, tk, _, _, rfl, _⟩ := clientCredentials_ok hok
    cases hid <;> simp at het
  | jwt =>
    obtain ⟨tk, k, wall, exp, aud, sub, uid, info, otk, _, _, _, _, _, _, _, _, _, _, _, _, rfl, _⟩ := jwt_ok hok
    cases hid <;> simp at het

/-- C128: once an authorization is revoked, no code of it is spent and no token of it refreshed by any request that starts
later, whatever the request is answered. -/
theorem C128_untouched (hth : ∀ i, Endpoint (ths i)) (hg : Interleaves ths (a ++ b)) (hrev : Revoked b id) (hlate : callsOf k a = [])
    (he : (k, e) ∈ b) : (∀ s, s.authId = id → e.q ≠ .disableSession s) ∧ ∀ i t, t.authId = id → e.q ≠ .refreshAccessToken i t := by
  obtain ⟨b1, b2, rfl⟩ := List.append_of_mem he
  have hs : a ++ (b1 ++ (k, e) :: b2) = (a ++ b1) ++ (k, e) :: b2 := by simp
  have hno : ∀ {i info}, ⟨.findActiveAuthInfoById i, (some info, none)⟩ ∈ callsOf k (a ++ b1) → i ≠ id := by
    rintro i info hm rfl
    rw [callsOf_late hlate] at hm
    exact hrev k info (List.mem_append_left _ (mem_callsOf.1 hm))
  obtain ⟨q, x⟩ := e
  refine ⟨fun s hsid heq => ?_, fun i t htid heq => ?_⟩
  · dsimp only at heq
    subst heq
    have h := global_key hth hg hs rfl
    generalize ths k = th at h
    cases h with
    | token _ h =>
      cases h with
      | spend _ info _ hm _ => exact hno hm hsid
    | authorize _ _ _ _ _ h => cases h
    | complete _ _ h => cases h with | complete info q hm h => cases h
  · dsimp only at heq
    subst heq
    have h := global_key hth hg hs rfl
    generalize ths k = th at h
    cases h with
    | token _ h =>
      cases h with
      | refresh _ info _ hm _ => exact hno hm htid
    | authorize _ _ _ _ _ h => cases h
    | complete _ _ h => cases h with | complete info q hm h => cases h

/-- C128, resource protector: no protected request that starts later and presents an access token of it is admitted. -/
theorem C128_protector (hrev : Revoked b id) {cfg : ProtectorCfg} {lib : Lib} {r r' : Req} {ok : Bool}
    (hlate : callsOf k a = []) (hr : Runs (validate cfg lib r) (callsOf k (a ++ b)) (.ok (ok, r'))) (he : (k, e) ∈ b)
    (hid : BelongsTo id e) : ok = false := by
  cases ok with
  | false => rfl
  | true =>
    rw [callsOf_late hlate] at hr
    obtain ⟨tok, atk, now, info, _, ht, _⟩ := C25_live hr
    have hek := mem_callsOf.2 he
    rw [ht] at hek
    cases hid <;> simp at hek
    rename_i h
    obtain ⟨_, rfl⟩ := hek
    refine absurd (mem_callsOf.1 (show (⟨.findActiveAuthInfoById id, (some info, none)⟩ : Event) ∈ callsOf k b from ?_)) (hrev k info)
    rw [ht, ← h]
    simp

/-- The same with scopes. -/
theorem C128_protector_scopes (hrev : Revoked b id) {cfg : ProtectorCfg} {lib : Lib} {r r' : Req} {m : List (GoStr × List GoStr)}
    {ok : Bool} (hlate : callsOf k a = []) (hr : Runs (validateWithScopes cfg lib r m) (callsOf k (a ++ b)) (.ok (ok, r')))
    (he : (k, e) ∈ b) (hid : BelongsTo id e) : ok = false := by
  cases ok with
  | false => rfl
  | true => exact C128_protector hrev hlate (C82_with_scopes hr) he hid

/-! ## A deployment in which an authorization is revoked -/

/-- The sample world, in which the authorization is shown as active only the first `n` times. -/
def revokeDet (n : Nat) (q : Query) : Option (q.Resp × Nat) :=
  match q with
  | .findActiveAuthInfoById _ => some (match n with | 0 => ((none, some .failed), 0) | n + 1 => ((some Sample.info, none), n))
  | q => some (({} : Sample.World).answer q, n)

/-- A refresh and a code request. -/
def revokeThreads : Nat → Prog Unit
  | 1 => handler Sample.tokenCfg Sample.lib (Sample.post Sample.refreshBody)
  | 2 => handler Sample.tokenCfg Sample.lib (Sample.post Sample.codeBody)
  | _ => .ret ()

/-- Whether no look-up of an authorization succeeds. -/
def neverActive (g : List (Nat × Event)) : Bool :=
  g.all fun x => match x.2 with
    | ⟨.findActiveAuthInfoById _, (some _, none)⟩ => false
    | _ => true

theorem neverActive_iff {g : List (Nat × Event)} (h : neverActive g = true) : Revoked g id := by
  intro k info hm
  simpa using List.all_eq_true.1 h _ hm

/-- The code the application found in a history. -/
def shownCode (id : Int64) (g : List (Nat × Event)) (k : Nat) : Bool :=
  g.any fun x => x.1 == k && match x.2 with
    | ⟨.findAuthSessionByCode _, (some s, none)⟩ => s.authId == id
    | _ => false

theorem shownCode_mem {g : List (Nat × Event)} (h : shownCode id g k = true) : ∃ e, (k, e) ∈ g ∧ BelongsTo id e := by
  obtain ⟨⟨j, q, x⟩, hm, h'⟩ := List.any_eq_true.1 h
  cases q <;> simp only [Bool.and_false, Bool.false_eq_true] at h'
  rcases x with ⟨_ | s, _ | er⟩ <;> simp at h'
  obtain ⟨rfl, h'⟩ := h'
  exact ⟨_, hm, .code _ _ h'⟩

/-- Whether the application found the sample token for the sample bearer token. -/
theorem shownToken_mem {t : List Event} (h : (t.head?.any fun e => match e with
      | ⟨.findOAuthTokenByAccessToken k, x⟩ => k == b!"at" && x == (some Sample.token, none)
      | _ => false) = true) : (⟨.findOAuthTokenByAccessToken b!"at", (some Sample.token, none)⟩ : Event) ∈ t := by
  match t, h with
  | ⟨q, x⟩ :: t, h =>
    cases q <;> simp at h
    obtain ⟨rfl, rfl⟩ := h
    exact List.mem_cons_self

/-- The hypotheses of `C128_token` and `C128_untouched` are met by a refresh that is granted (the first 20 calls at most), after
which the authorization is revoked and a code of it presented: refused. Were the authorization still active, it would be granted. -/
example :
    let a := (schedule revokeDet (List.replicate 20 1) revokeThreads 1).1
    let b := (schedule revokeDet (List.replicate 20 2) revokeThreads 0).1
    a ++ b = (schedule revokeDet (List.replicate 20 1 ++ List.replicate 20 2) revokeThreads 1).1 ∧
    Interleaves (fun i => ⟨revokeThreads i⟩) (schedule revokeDet (List.replicate 20 1 ++ List.replicate 20 2) revokeThreads 1).1 ∧
    Revoked b 11 ∧ (∃ e, (2, e) ∈ b ∧ BelongsTo 11 e) ∧
    (∃ resp, (1, wrote resp) ∈ a ∧ resp.status = 200) ∧ (∃ resp, (2, wrote resp) ∈ b ∧ resp.status = 400) ∧
    ∃ resp, (2, wrote resp) ∈ (schedule revokeDet (List.replicate 20 1 ++ List.replicate 20 2) revokeThreads 2).1 ∧ resp.status = 200 :=
  ⟨rfl, schedule_interleaves _ _ _ _, neverActive_iff (by decide +kernel), shownCode_mem (by decide +kernel),
    answered_mem (by decide +kernel), answered_mem (by decide +kernel), answered_mem (by decide +kernel)⟩

/-- The hypotheses of `C128_protector` are met by a request with a bearer token whose authorization is not found, while the
same request is admitted when it is (`sample_admitted`). -/
example : ∃ g ok r', Runs (validate sampleProtector Sample.lib sampleBearer) (callsOf 1 ([] ++ g)) (.ok (ok, r')) ∧
    Revoked g 11 ∧ ∃ e, (1, e) ∈ g ∧ BelongsTo 11 e := by
  let w : Sample.World := { info := (none, some .failed) }
  let p := validate sampleProtector Sample.lib sampleBearer
  have hok : (match (w.run p).2.1 with | .ok (ok, _) => ok == false | _ => false) = true := by decide +kernel
  have hr := w.runs p
  generalize ho : (w.run p).2.1 = o at hok hr
  match o, hok, hr with
  | .ok (ok, r'), _, hr =>
    have hc : callsOf 1 ([] ++ (w.run p).1.map (fun e => (1, e))) = (w.run p).1 := by
      rw [List.nil_append]
      generalize (w.run p).1 = t
      induction t with
      | nil => rfl
      | cons e t ih => simp [callsOf] at ih ⊢; exact ih
    refine ⟨(w.run p).1.map (fun e => (1, e)), ok, r', by rw [hc]; exact hr, neverActive_iff (by decide +kernel), ?_⟩
    refine ⟨⟨.findOAuthTokenByAccessToken b!"at", (some Sample.token, none)⟩, ?_, .access _ _ rfl⟩
    exact List.mem_map.2 ⟨_, (by exact shownToken_mem (by decide +kernel)), rfl⟩

end Goidc.Props
