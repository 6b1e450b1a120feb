import Verif.Lemmas.Cost

/-! # Counting the calls of `HandleRequest` -/

namespace Goidc

open Spec AuthzEndpoint

variable {α β ε : Type} {lib : Lib} {r : Req} {policy : Policy} {c : Client} {req : Request}

theorem xcosts_finish {i n} : XCosts (finish policy lib r i req : AuthM α) n completed := by
  unfold finish
  refine ⟨fun t a h => ?_, ?_⟩
  · obtain ⟨_, _, _, _, _, h⟩ := xok_bind.1 h
    exact (xok_throw.1 h).elim
  · refine (xcosts_bind (N := completed) (xcosts_lift costs_complete) (by tally) (by tally) (by tally) fun _ => ?_).2
    exact xcosts_throw

theorem xcosts_covers {i} : XCosts (consentCovers policy i req) (bill (internal := 1)) (bill (internal := 1)) := by
  unfold consentCovers; xcosts

/-- What completing a request costs inside `HandleRequest`, with the lookup of the earlier consent. -/
abbrev silently : Tally := bill (token := 1) (session := 1) (code := 1) (lookup := 5) (log := 1) (response := 1) (internal := 3)

/-- Walks through a program. -/
macro "fcosts" : tactic => `(tactic| repeat' first
    | (refine xcosts_mono xcosts_finish (fun _ => Nat.le_refl _) (by tally))
    | (refine xcosts_bind xcosts_covers (by tally) (by tally) (by tally) fun _ => ?_)
    | xcosts)

theorem never_finish {i t} {a : α} : ¬ XOk (finish policy lib r i req : AuthM α) t a := by
  intro h
  unfold finish at h
  obtain ⟨_, _, _, _, _, h⟩ := xok_bind.1 h
  exact (xok_throw.1 h).elim

theorem never_noneComplete {t} {a : α} : ¬ XOk (noneComplete policy lib r req : AuthM α) t a := by
  intro h
  unfold noneComplete at h
  obtain ⟨_, _, _, _, _, h⟩ := xok_bind.1 h
  split at h
  · exact never_callback h
  · obtain ⟨_, _, _, _, _, h⟩ := xok_bind.1 h
    split at h
    all_goals try exact never_errorTo h
    obtain ⟨_, _, _, _, _, h⟩ := xok_bind.1 h
    split at h
    · exact never_finish h
    · exact never_errorTo h

theorem xcosts_noneComplete {n} : XCosts (noneComplete policy lib r req : AuthM α) n silently := by
  have h : XCosts (noneComplete policy lib r req : AuthM α) silently silently := by
    unfold noneComplete
    fcosts
  exact ⟨fun t a h' => (never_noneComplete h').elim, h.2⟩

theorem xcosts_requireLogin : XCosts (requireLogin lib r req) (bill (lookup := 1))
    (bill (lookup := 1) (log := 1) (response := 1) (internal := 1)) := by
  unfold requireLogin; xcosts

theorem xcosts_requireMatch {s d} : XCosts (requireMatch lib r req s d) (bill (lookup := 1))
    (bill (lookup := 1) (log := 1) (response := 1) (internal := 1)) := by
  unfold requireMatch; xcosts

theorem costs_parse {σ : Type} {s s0} {kf : JwtToken → Prog (Jwt.KeyRes × σ)} {n : Tally} (h : ∀ t, Costs (kf t) n) :
    Costs (Jwt.parse lib s s0 kf) fun k => n k + one .internal k := by
  unfold Jwt.parse
  split
  · exact costs_pure
  split
  · exact costs_pure
  refine costs_bind (h _) (fun _ => Nat.le_add_right ..) fun x => ?_
  obtain ⟨k, c⟩ := x
  cases k with
  | oauthErr e => exact costs_pure
  | err => exact costs_pure
  | key k =>
    refine costs_bind costs_ask (fun k => ?_) fun _ => costs_pure
    show one .internal k ≤ n k + one .internal k - n k
    omega

theorem xcosts_hint : XCosts (checkIdTokenHint lib r c req) (bill (internal := 1)) (bill (response := 1) (internal := 2)) := by
  unfold checkIdTokenHint
  dsimp only
  split
  · xcosts
  · have h : Costs (Jwt.parse lib req.idTokenHint () (hintKeyFunc c)) (bill (internal := 1)) :=
      costs_mono (costs_parse (n := bill) fun _ => costs_pure) (by tally)
    refine xcosts_bind (xcosts_lift h) (by tally) (by tally) (by tally) fun _ => ?_
    unfold apanic
    xcosts

/-- What never returns may be preceded by anything. -/
theorem xcosts_never {p : AuthM α} {f : α → AuthM β} {n m N M : Tally} (h : XCosts p n m) (hm : ∀ k, m k ≤ M k)
    (hnm : ∀ k, n k ≤ M k) (hf : ∀ a, XCosts (f a) (fun k => M k - n k) fun k => M k - n k)
    (hn : ∀ a t b, ¬ XOk (f a) t b) : XCosts (p >>= f) N M := by
  refine ⟨fun t a h => ?_, (xcosts_bind (N := M) h hnm hm hnm hf).2⟩
  obtain ⟨_, _, _, _, _, h⟩ := xok_bind.1 h
  exact (hn _ _ _ h).elim

/-- The most `prompt=none` costs. -/
abbrev silentAll : Tally := bill (token := 1) (session := 1) (code := 1) (lookup := 7) (log := 1) (response := 1) (internal := 4)

theorem xcosts_promptNone : XCosts (promptNone policy lib r c req) (bill) silentAll := by
  unfold promptNone
  split
  · xcosts
  · exact xcosts_never xcosts_requireLogin (by tally) (by tally) (fun _ =>
      xcosts_mono xcosts_noneComplete (fun _ => Nat.le_refl _) (by tally)) fun _ _ _ => never_noneComplete
  · split
    · xcosts
    · refine xcosts_never xcosts_requireLogin (by tally) (by tally) (fun _ =>
        xcosts_bind xcosts_requireMatch (by tally) (by tally) (by tally) fun _ =>
        xcosts_mono xcosts_noneComplete (fun _ => Nat.le_refl _) (by tally)) fun _ _ _ h => ?_
      obtain ⟨_, _, _, _, _, h⟩ := xok_bind.1 h
      exact never_noneComplete h
  · refine xcosts_never xcosts_hint (by tally) (by tally) (fun _ =>
        xcosts_bind xcosts_requireMatch (by tally) (by tally) (by tally) fun _ =>
        xcosts_mono xcosts_noneComplete (fun _ => Nat.le_refl _) (by tally)) fun _ _ _ h => ?_
    obtain ⟨_, _, _, _, _, h⟩ := xok_bind.1 h
    exact never_noneComplete h
  · exact xcosts_pure

theorem xcosts_confirmLogin : XCosts (confirmLogin lib r req) (bill (lookup := 1))
    (bill (lookup := 1) (log := 2) (screen := 1) (response := 1) (internal := 1)) := by
  unfold confirmLogin
  refine xcosts_bind (xcosts_lift costs_ask) (by tally) (by tally) (by tally) fun x => ?_
  match x with
  | none => xcosts
  | some true => xcosts
  | some false =>
    dsimp only
    refine xcosts_never xcosts_alog (by tally) (by tally) (fun _ => ?_) fun _ _ _ h => ?_
    · xcosts
    · obtain ⟨x, _, _, _, _, h⟩ := xok_bind.1 h
      cases x
      · exact never_callback h
      · exact (xok_throw.1 h).elim

theorem xcosts_promptLogin : XCosts (promptLogin lib r req) (bill (lookup := 1))
    (bill (lookup := 1) (log := 1) (screen := 1) (response := 1) (internal := 1)) := by
  unfold promptLogin
  split
  · refine xcosts_bind (xcosts_lift costs_ask) (by tally) (by tally) (by tally) fun x => ?_
    match x with
    | none => xcosts
    | some true => xcosts
    | some false =>
      dsimp only
      refine xcosts_never xcosts_alog (by tally) (by tally) (fun _ => ?_) fun _ _ _ h => ?_
      · xcosts
      · obtain ⟨x, _, _, _, _, h⟩ := xok_bind.1 h
        exact (xok_throw.1 h).elim
  · exact xcosts_pure

theorem xcosts_authAge : XCosts (checkAuthAge lib r req) (bill (lookup := 1) (internal := 1))
    (bill (lookup := 1) (log := 1) (screen := 1) (response := 1) (internal := 1)) := by
  unfold checkAuthAge
  refine xcosts_bind (xcosts_lift costs_ask) (by tally) (by tally) (by tally) fun x => ?_
  match x with
  | none => xcosts
  | some x =>
    dsimp only
    split
    · refine xcosts_bind (xcosts_lift costs_ask) (by tally) (by tally) (by tally) fun x => ?_
      split
      · refine xcosts_never xcosts_alog (by tally) (by tally) (fun _ => ?_) fun _ _ _ h => ?_
        · xcosts
        · obtain ⟨x, _, _, _, _, h⟩ := xok_bind.1 h
          exact (xok_throw.1 h).elim
      · exact xcosts_pure
    · exact xcosts_pure

theorem xcosts_omitConsent : XCosts (omitConsent policy lib r c req) (bill (lookup := 2) (internal := 1)) silently := by
  unfold omitConsent
  split
  · exact xcosts_pure
  split
  · fcosts
  · exact xcosts_pure
  · exact xcosts_pure

theorem xcosts_showConsent : XCosts (showConsent lib r c req) (bill (screen := 1))
    (bill (screen := 1) (log := 1) (response := 1) (internal := 1)) := by
  unfold showConsent
  xcosts

/-- The most an authorization request costs. -/
abbrev frontAll : Tally := bill (token := 1) (session := 1) (code := 1) (screen := 1) (lookup := 10) (log := 6) (response := 1) (internal := 4)

theorem xcosts_handleRequestM : XCosts (handleRequestM policy lib r) frontAll frontAll := by
  unfold handleRequestM
  refine xcosts_bind xcosts_identify (by tally) (by tally) (by tally) fun c => ?_
  refine xcosts_bind xcosts_buildRequest (by tally) (by tally) (by tally) fun req => ?_
  have rest : XCosts (promptLogin lib r req >>= fun _ => checkAuthAge lib r req >>= fun _ => omitConsent policy lib r c req >>= fun _ =>
        showConsent lib r c req) (bill (screen := 1) (lookup := 4) (internal := 2))
      (bill (token := 1) (session := 1) (code := 1) (screen := 1) (lookup := 7) (log := 1) (response := 1) (internal := 4)) := by
    refine xcosts_bind xcosts_promptLogin (by tally) (by tally) (by tally) fun _ => ?_
    refine xcosts_bind xcosts_authAge (by tally) (by tally) (by tally) fun _ => ?_
    refine xcosts_bind xcosts_omitConsent (by tally) (by tally) (by tally) fun _ => ?_
    exact xcosts_mono xcosts_showConsent (by tally) (by tally)
  dsimp only
  split
  · refine xcosts_bind xcosts_promptNone (by tally) (by tally) (by tally) fun _ => ?_
    exact xcosts_mono rest (by tally) (by tally)
  · refine xcosts_bind xcosts_confirmLogin (by tally) (by tally) (by tally) fun _ => ?_
    exact xcosts_mono rest (by tally) (by tally)

theorem costs_handleRequest : Costs (handleRequest policy lib r) frontAll := by
  unfold handleRequest
  refine costs_bind (costs_run xcosts_handleRequestM) (by tally) fun x => ?_
  cases x <;> exact costs_pure

end Goidc
