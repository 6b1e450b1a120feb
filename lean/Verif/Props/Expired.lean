import Verif.Spec.Expired
import Verif.Props.Revoked

/-! # C129: what has expired stays expired -/

namespace Goidc.Props

open Spec TokenEndpoint ResourceProtector Grant

variable {ths : Nat → Thread} {g a b : List (Nat × Event)} {i k : Nat} {n : Int64} {old t : OAuthToken}

theorem clockForward_split (h : ClockForward (a ++ b)) (ha : (i, ⟨.now, n⟩) ∈ a) {m : Int64} (hb : (k, ⟨.now, m⟩) ∈ b) : n ≤ m := by
  obtain ⟨a1, a2, rfl⟩ := List.append_of_mem ha
  obtain ⟨b1, b2, rfl⟩ := List.append_of_mem hb
  exact h a1 (a2 ++ b1) b2 i k n m (by simp)

/-- C129, access tokens: once a reading of the clock shows an access token to have expired, no protected request that starts
later and is shown the same times for its token is admitted. -/
theorem C129_access (hc : ClockForward (a ++ b)) (hn : (i, ⟨.now, n⟩) ∈ a) (hx : AccessExpired old n) {cfg : ProtectorCfg} {lib : Lib}
    {r r' : Req} {ok : Bool} (hlate : callsOf k a = []) (hr : Runs (validate cfg lib r) (callsOf k (a ++ b)) (.ok (ok, r')))
    {tok : GoStr} (he : (k, ⟨.findOAuthTokenByAccessToken tok, (some t, none)⟩) ∈ b) (h1 : t.refreshedAt = old.refreshedAt)
    (h2 : t.accessTokenExpiresIn = old.accessTokenExpiresIn) : ok = false := by
  cases ok with
  | false => rfl
  | true =>
    rw [callsOf_late hlate] at hr
    obtain ⟨tok', atk, now, info, _, ht, hlive⟩ := C25_live hr
    have hek := mem_callsOf.2 he
    have hnow : (k, ⟨.now, now⟩) ∈ b := mem_callsOf.1 (by rw [ht]; simp)
    rw [ht] at hek
    have : t = atk := by
      simp only [List.mem_cons, List.not_mem_nil, or_false] at hek
      rcases hek with h | h | h <;> cases h
      rfl
    subst this
    have hle := clockForward_split hc hn hnow
    exact absurd (show t.refreshedAt + t.accessTokenExpiresIn < now by
      rw [h1, h2]; exact Int64.lt_of_lt_of_le hx hle) hlive

/-- The same with scopes. -/
theorem C129_access_scopes (hc : ClockForward (a ++ b)) (hn : (i, ⟨.now, n⟩) ∈ a) (hx : AccessExpired old n) {cfg : ProtectorCfg}
    {lib : Lib} {r r' : Req} {m : List (GoStr × List GoStr)} {ok : Bool} (hlate : callsOf k a = [])
    (hr : Runs (validateWithScopes cfg lib r m) (callsOf k (a ++ b)) (.ok (ok, r')))
    {tok : GoStr} (he : (k, ⟨.findOAuthTokenByAccessToken tok, (some t, none)⟩) ∈ b) (h1 : t.refreshedAt = old.refreshedAt)
    (h2 : t.accessTokenExpiresIn = old.accessTokenExpiresIn) : ok = false := by
  cases ok with
  | false => rfl
  | true => exact C129_access hc hn hx hlate (C82_with_scopes hr) he h1 h2

/-- C129, refresh tokens: once a reading of the clock shows a refresh token to have expired, no token request that starts
later and is shown the same times for its refresh token is granted. -/
theorem C129_refresh (hg : Interleaves ths (a ++ b)) (hc : ClockForward (a ++ b)) (hn : (i, ⟨.now, n⟩) ∈ a)
    (hx : RefreshExpired old n) {cfg : TokenCfg} {lib : Lib} {r : Req} {resp : HttpResp} (hb : AllBuiltIn lib cfg)
    (hk : ths k = ⟨handler cfg lib r⟩) (hlate : callsOf k a = [])
    {tok : GoStr} (he : (k, ⟨.findOAuthTokenByRefreshToken tok, (some t, none)⟩) ∈ b) (h1 : t.createdAt = old.createdAt)
    (h2 : t.refreshTokenExpiresIn = old.refreshTokenExpiresIn) (hw : (k, wrote resp) ∈ b) : resp.status ≠ 200 := by
  intro h200
  have hgk := hg k
  rw [hk, callsOf_late hlate] at hgk
  have hek := mem_callsOf.2 he
  obtain ⟨pre, post, hsp⟩ := List.append_of_mem (mem_callsOf.2 hw)
  rw [hsp] at hgk hek
  have hs : Steps (handler cfg lib r) (pre ++ [wrote resp]) := steps_of_append (t' := post) (by simpa using hgk)
  have hsil : ∀ h, Registered cfg r h → Silent h := fun h hr => registered_silent hr (hb _ _ hr) h hr
  have hpost : post = [] := (writes_handler hsil).last hgk
  subst hpost
  have hpre : (⟨.findOAuthTokenByRefreshToken tok, (some t, none)⟩ : Event) ∈ pre := by
    rcases List.mem_append.1 hek with h | h
    · exact h
    · cases List.mem_singleton.1 h
  obtain ⟨_, _, hf, _, _, _, _, _, hreg, _⟩ := token_200 hsil hs h200
  obtain ⟨c, auth, now, t2, res, _, hauth, hclock, hsub, hok, hd, _⟩ := grant_200 hreg (hb _ _ hreg) hs h200
  have het : (⟨.findOAuthTokenByRefreshToken tok, (some t, none)⟩ : Event) ∈ t2 := by
    have : _ ∈ dataCalls pre := (mem_dataCalls rfl).2 hpre
    rw [hd] at this
    rcases List.mem_append.1 this with h | h
    · exact absurd h (mem_auth_absurd hauth fun h => h)
    · exact (mem_dataCalls rfl).1 h
  have hnow : (k, ⟨.now, now⟩) ∈ b := mem_callsOf.1 (by
    rw [hsp]
    exact List.mem_append_left _ ((hclock now).2 (.inl rfl)))
  have hle := clockForward_split hc hn hnow
  cases hb _ _ hreg with
  | refreshToken =>
    obtain ⟨old', info, tk, _, rfl, hlive, _⟩ := refreshToken_ok hok
    have : t = old' := by
      simp only [List.mem_cons, List.not_mem_nil, or_false] at het
      rcases het with h | h | h <;> cases h
      rfl
    subst this
    refine absurd (show t.refreshTokenExpiresIn + t.createdAt < now from ?_) hlive
    rw [h1, h2, Int64.add_comm]
    exact Int64.lt_of_lt_of_le hx hle
  | authorizationCode =>
    obtain ⟨sess, info, tk, tid, _, _, rfl, _, _, _, hidt⟩ := authorizationCode_ok hok
    rcases hidt with ⟨_, _, _, rfl, _⟩ | ⟨_, rfl, _⟩ <;>
      simp at het
  | password =>
    obtain ⟨uid, info, tk, _, _, _, rfl, _⟩ := password_ok hok
    simp at het
  | clientCredentials =>
    obtain ⟨info, tk, _, _, rfl, _⟩ := clientCredentials_ok hok
    simp at het
  | jwt =>
    obtain ⟨tk, k, wall, exp, aud, sub, uid, info, otk, _, _, _, _, _, _, _, _, _, _, _, _, rfl, _⟩ := jwt_ok hok
    simp at het

/-! ## A deployment in which tokens expire -/

/-- The readings of the clock. -/
def readingsOf (g : List (Nat × Event)) : List Int64 :=
  g.filterMap fun x => match x.2 with
    | ⟨.now, n⟩ => some n
    | _ => none

theorem clockForward_of_pairwise {g : List (Nat × Event)} (h : (readingsOf g).Pairwise (· ≤ ·)) : ClockForward g := by
  rintro a b c i j n m rfl
  simp only [readingsOf, List.filterMap_append, List.filterMap_cons, List.pairwise_append, List.pairwise_cons] at h
  exact h.2.1.1 m (List.mem_append_right _ List.mem_cons_self)

theorem mem_readingsOf {g : List (Nat × Event)} (h : n ∈ readingsOf (g.filter (·.1 == k))) : (k, ⟨.now, n⟩) ∈ g := by
  obtain ⟨⟨j, q, x⟩, hm, h⟩ := List.mem_filterMap.1 h
  obtain ⟨hm', hj⟩ := List.mem_filter.1 hm
  have : j = k := by simpa using hj
  subst this
  cases q <;> simp only [reduceCtorEq] at h
  case now =>
    cases h
    exact hm'

/-- The sample world with a clock that shows one second more each time it is read. -/
def tickDet (c : Int64) (q : Query) : Option (q.Resp × Int64) :=
  match q with
  | .now => some (c, c + 1)
  | q => some (({} : Sample.World).answer q, c)

/-- Two refreshes. -/
def tickThreads : Nat → Prog Unit
  | 1 => handler Sample.tokenCfg Sample.lib (Sample.post Sample.refreshBody)
  | 2 => handler Sample.tokenCfg Sample.lib (Sample.post Sample.refreshBody)
  | _ => .ret ()

theorem shownRefresh_mem {g : List (Nat × Event)} (h : (g.any fun x => x.1 == k && match x.2 with
      | ⟨.findOAuthTokenByRefreshToken _, x⟩ => x == (some Sample.token, none)
      | _ => false) = true) : ∃ tok, (k, (⟨.findOAuthTokenByRefreshToken tok, (some Sample.token, none)⟩ : Event)) ∈ g := by
  obtain ⟨⟨j, q, x⟩, hm, h'⟩ := List.any_eq_true.1 h
  cases q <;> simp at h'
  obtain ⟨rfl, rfl⟩ := h'
  exact ⟨_, hm⟩

/-- The hypotheses of `C129_refresh` are met: the refresh token lives to the second 8150; one request finds it expired, and so
does the next.  A second earlier the first is granted, and the second, at its start at 8151, is refused. -/
example :
    let a := (schedule tickDet (List.replicate 20 1) tickThreads 8151).1
    let c := (schedule tickDet (List.replicate 20 1) tickThreads 8151).2
    let b := (schedule tickDet (List.replicate 20 2) tickThreads c).1
    a ++ b = (schedule tickDet (List.replicate 20 1 ++ List.replicate 20 2) tickThreads 8151).1 ∧
    Interleaves (fun i => ⟨tickThreads i⟩) (schedule tickDet (List.replicate 20 1 ++ List.replicate 20 2) tickThreads 8151).1 ∧
    ClockForward (a ++ b) ∧ (1, ⟨.now, 8151⟩) ∈ a ∧
    RefreshExpired Sample.token 8151 ∧ (∃ tok, (2, (⟨.findOAuthTokenByRefreshToken tok, (some Sample.token, none)⟩ : Event)) ∈ b) ∧
    (∃ resp, (1, wrote resp) ∈ a ∧ resp.status = 400) ∧ (∃ resp, (2, wrote resp) ∈ b ∧ resp.status = 400) ∧
    ∃ resp, (1, wrote resp) ∈ (schedule tickDet (List.replicate 20 1) tickThreads 8150).1 ∧ resp.status = 200 :=
  ⟨rfl, schedule_interleaves _ _ _ _,
    clockForward_of_pairwise (by decide +kernel), mem_readingsOf (by decide +kernel), (show (950 : Int64) + 7200 < 8151 by decide), shownRefresh_mem (by decide +kernel),
    answered_mem (by decide +kernel), answered_mem (by decide +kernel), answered_mem (by decide +kernel)⟩

/-- The hypotheses of `C129_access` are met by a protected request after its access token has expired (it lives to 4550); before
that the same request is admitted (`sample_admitted`). -/
example : ∃ a g ok r', ClockForward (a ++ g) ∧ (0, ⟨.now, 4551⟩) ∈ a ∧ AccessExpired Sample.token 4551 ∧ callsOf 1 a = [] ∧
    Runs (validate sampleProtector Sample.lib sampleBearer) (callsOf 1 (a ++ g)) (.ok (ok, r')) ∧
    (1, ⟨.findOAuthTokenByAccessToken b!"at", (some Sample.token, none)⟩) ∈ g := by
  let w : Sample.World := { now := 4551 }
  let p := validate sampleProtector Sample.lib sampleBearer
  have hok : (match (w.run p).2.1 with | .ok (ok, _) => ok == false | _ => false) = true := by decide +kernel
  have hr := w.runs p
  generalize ho : (w.run p).2.1 = o at hok hr
  match o, hok, hr with
  | .ok (ok, r'), _, hr =>
    have hc : ∀ t : List Event, callsOf 1 ([(0, ⟨.now, 4551⟩)] ++ t.map (fun e => (1, e))) = t := by
      intro t
      rw [callsOf_append, show callsOf 1 [(0, (⟨.now, 4551⟩ : Event))] = [] from rfl, List.nil_append]
      induction t with
      | nil => rfl
      | cons e t ih => simp [callsOf] at ih ⊢; exact ih
    refine ⟨[(0, ⟨.now, 4551⟩)], (w.run p).1.map (fun e => (1, e)), ok, r', clockForward_of_pairwise (by decide +kernel),
      List.mem_cons_self, (show (950 : Int64) + 3600 < 4551 by decide), rfl, by rw [hc]; exact hr, ?_⟩
    exact List.mem_map.2 ⟨_, (by exact shownToken_mem (by decide +kernel)), rfl⟩

end Goidc.Props
