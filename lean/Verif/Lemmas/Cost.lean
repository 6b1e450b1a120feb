import Verif.Spec.Cost
import Verif.Lemmas.Prog
import Verif.Model.TokenEndpoint
import Verif.Model.ResourceProtector
import Verif.Model.AuthorizationEndpoint

/-! # Counting calls -/

namespace Goidc

open Spec

variable {α β ε : Type} {lib : Lib} {r : Req} {policy : Policy} {c : Client} {req : Request}

/-- A number of calls for each kind. -/
abbrev Tally := CallKind → Nat

/-- One call of a kind. -/
def one (k : CallKind) : Tally := fun k' => if k' = k then 1 else 0

/-- A number of calls for each kind, by name. -/
def bill (token authorization session disable record code password screen lookup log response internal : Nat := 0) : Tally
  | .token => token
  | .authorization => authorization
  | .session => session
  | .disable => disable
  | .record => record
  | .code => code
  | .password => password
  | .screen => screen
  | .lookup => lookup
  | .log => log
  | .response => response
  | .internal => internal

/-- Every run makes at most so many calls. -/
def Costs (p : Prog α) (n : Tally) : Prop := ∀ t o, Runs p t o → ∀ k, callCount k t ≤ n k

/-- Every run makes at most `n` calls when it ends with a value, and `m` when it does not. -/
def XCosts (p : ExceptT ε Prog α) (n m : Tally) : Prop :=
  (∀ t a, XOk p t a → ∀ k, callCount k t ≤ n k) ∧ (∀ t e, XErr p t e → ∀ k, callCount k t ≤ m k) ∧
    ∀ t, XPanic p t → ∀ k, callCount k t ≤ m k

theorem callCount_append {k : CallKind} {t t' : List Event} : callCount k (t ++ t') = callCount k t + callCount k t' := by
  simp [callCount]

theorem callCount_nil {k : CallKind} : callCount k [] = 0 := rfl

theorem costs_steps {p : Prog α} {n : Tally} (h : Costs p n) {t} (hs : Steps p t) (k : CallKind) : callCount k t ≤ n k := by
  obtain ⟨t', o, hr⟩ := steps_complete hs
  have := h _ _ hr k
  rw [callCount_append] at this
  omega

theorem costs_mono {p : Prog α} {n n' : Tally} (h : Costs p n) (hn : ∀ k, n k ≤ n' k) : Costs p n' :=
  fun t o hr k => Nat.le_trans (h t o hr k) (hn k)

theorem costs_pure {a : α} {n : Tally} : Costs (pure a) n := by
  intro t o h k
  rw [h.1, callCount_nil]
  omega

theorem costs_panic {n : Tally} : Costs (.panic : Prog α) n := by
  intro t o h k
  rw [h.1, callCount_nil]
  omega

theorem costs_ask {q : Query} : Costs (ask q) (one (kindOf q)) := by
  rintro t o ⟨x, t', rfl, rfl, _⟩ k
  unfold one callCount
  by_cases h : kindOf q = k
  · simp [h]
  · simp [h]

theorem costs_bind {p : Prog α} {f : α → Prog β} {n N : Tally} (h : Costs p n) (hn : ∀ k, n k ≤ N k)
    (hf : ∀ a, Costs (f a) fun k => N k - n k) : Costs (p >>= f) N := by
  intro t o hr k
  rcases runs_bind.1 hr with ⟨a, t1, t2, rfl, h1, h2⟩ | ⟨h1, _⟩
  · rw [callCount_append]
    have := h _ _ h1 k
    have : _ ≤ N k - n k := hf a _ _ h2 k
    have := hn k
    omega
  · exact Nat.le_trans (h _ _ h1 k) (hn k)

theorem xcosts_mono {p : ExceptT ε Prog α} {n m n' m' : Tally} (h : XCosts p n m) (hn : ∀ k, n k ≤ n' k)
    (hm : ∀ k, m k ≤ m' k) : XCosts p n' m' :=
  ⟨fun t a h' k => Nat.le_trans (h.1 t a h' k) (hn k), fun t e h' k => Nat.le_trans (h.2.1 t e h' k) (hm k),
    fun t h' k => Nat.le_trans (h.2.2 t h' k) (hm k)⟩

theorem xcosts_pure {a : α} {n m : Tally} : XCosts (pure a : ExceptT ε Prog α) n m := by
  refine ⟨fun t b h k => ?_, fun t e h => ?_, fun t h => ?_⟩
  · rw [(xok_pure.1 h).1, callCount_nil]; omega
  · exact (xerr_pure.1 h).elim
  · exact (xpanic_pure.1 h).elim

theorem xcosts_throw {e : ε} {n m : Tally} : XCosts (throw e : ExceptT ε Prog α) n m := by
  refine ⟨fun t b h k => ?_, fun t e h k => ?_, fun t h => ?_⟩
  · exact (xok_throw.1 h).elim
  · rw [(xerr_throw.1 h).1, callCount_nil]; omega
  · exact (xpanic_throw.1 h).elim

theorem xcosts_lift {p : Prog α} {n : Tally} (h : Costs p n) : XCosts (ExceptT.lift p : ExceptT ε Prog α) n n :=
  ⟨fun _ _ h' => h _ _ (xok_lift.1 h'), fun _ _ h' => (xerr_lift.1 h').elim, fun _ h' => h _ _ (xpanic_lift.1 h')⟩

theorem xcosts_mkpanic {n m : Tally} : XCosts (ExceptT.mk .panic : ExceptT ε Prog α) n m := by
  refine ⟨fun t b h => ?_, fun t e h => ?_, fun t h k => ?_⟩
  · cases h.2
  · cases h.2
  · rw [h.1, callCount_nil]; omega

theorem xcosts_bind {p : ExceptT ε Prog α} {f : α → ExceptT ε Prog β} {n m N M : Tally} (h : XCosts p n m)
    (hn : ∀ k, n k ≤ N k) (hm : ∀ k, m k ≤ M k) (hnm : ∀ k, n k ≤ M k)
    (hf : ∀ a, XCosts (f a) (fun k => N k - n k) fun k => M k - n k) : XCosts (p >>= f) N M := by
  refine ⟨fun t b hr k => ?_, fun t e hr k => ?_, fun t hr k => ?_⟩
  · obtain ⟨a, t1, t2, rfl, h1, h2⟩ := xok_bind.1 hr
    rw [callCount_append]
    have := h.1 _ _ h1 k
    have : _ ≤ N k - n k := (hf a).1 _ _ h2 k
    have := hn k
    omega
  · rcases xerr_bind.1 hr with h1 | ⟨a, t1, t2, rfl, h1, h2⟩
    · exact Nat.le_trans (h.2.1 _ _ h1 k) (hm k)
    · rw [callCount_append]
      have := h.1 _ _ h1 k
      have : _ ≤ M k - n k := (hf a).2.1 _ _ h2 k
      have := hnm k
      omega
  · rcases xpanic_bind.1 hr with h1 | ⟨a, t1, t2, rfl, h1, h2⟩
    · exact Nat.le_trans (h.2.2 _ h1 k) (hm k)
    · rw [callCount_append]
      have := h.1 _ _ h1 k
      have : _ ≤ M k - n k := (hf a).2.2 _ h2 k
      have := hnm k
      omega

/-- The program behind an exception program. -/
theorem costs_run {p : ExceptT ε Prog α} {n m : Tally} (h : XCosts p n m) : Costs p.run fun k => max (n k) (m k) := by
  intro t o hr k
  match o with
  | .ok (.ok a) => exact Nat.le_trans (h.1 _ _ hr k) (Nat.le_max_left ..)
  | .ok (.error e) => exact Nat.le_trans (h.2.1 _ _ hr k) (Nat.le_max_right ..)
  | .panic => exact Nat.le_trans (h.2.2 _ hr k) (Nat.le_max_right ..)

/-- Every kind has enough left. -/
macro "tally" : tactic => `(tactic| (intro k; cases k <;> exact Nat.le_of_ble_eq_true rfl))

/-- Known costs; extended below. -/
syntax "costleaf" : tactic

macro_rules | `(tactic| costleaf) => `(tactic| first
  | exact costs_ask | exact xcosts_lift costs_ask)

/-- Walks through a program. -/
macro "costs" : tactic => `(tactic| ((try dsimp only); repeat' first
    | exact costs_pure | exact costs_panic | exact xcosts_pure | exact xcosts_throw | exact xcosts_mkpanic
    | (refine costs_mono (by costleaf) (by tally))
    | (refine xcosts_mono (by costleaf) (by tally) (by tally))
    | (refine costs_bind (by costleaf) (by tally) fun _ => ?_)
    | (refine xcosts_bind (by costleaf) (by tally) (by tally) (by tally) fun _ => ?_)
    | split))

/-! ## The parts -/

theorem costs_plog {lv ev ps} : Costs (AuthzEndpoint.plog lv r ev ps) (bill (log := 1)) := costs_mono costs_ask (by tally)
theorem xcosts_alog {lv ev ps} : XCosts (AuthzEndpoint.alog lv r ev ps) (bill (log := 1)) (bill (log := 1)) := xcosts_lift costs_plog
theorem costs_tlog {lv gt ev ps} : Costs (tlog lv gt ev ps) (bill (log := 1)) := costs_mono costs_ask (by tally)
theorem xcosts_glog {lv gt ev ps} : XCosts (glog lv gt ev ps) (bill (log := 1)) (bill (log := 1)) := xcosts_lift costs_tlog
theorem costs_respond {x} : Costs (respond x) (bill (response := 1)) := costs_mono costs_ask (by tally)

macro_rules | `(tactic| costleaf) => `(tactic| first
  | exact costs_plog | exact xcosts_alog | exact costs_tlog | exact xcosts_glog | exact costs_respond
  | exact costs_ask | exact xcosts_lift costs_ask)

open AuthResponse in
theorem costs_success {mode uri ps} : Costs (success lib r mode uri ps) (bill (response := 1) (internal := 1)) := by
  unfold success redirectTo render connector
  costs

theorem costs_error {mode uri typ desc st} : Costs (AuthResponse.error lib r mode uri typ desc st) (bill (response := 1) (internal := 1)) :=
  costs_success

section
open AuthzEndpoint

/-- Answering the browser inside `HandleRequest`. -/
abbrev answered : Tally := bill (log := 1) (response := 1) (internal := 1)

theorem xcosts_errorTo {mode uri typ desc st n} : XCosts (errorTo lib r mode uri typ desc st : AuthM α) n
    (bill (response := 1) (internal := 1)) := by
  unfold errorTo
  refine ⟨fun t a h => ?_, ?_⟩
  · obtain ⟨_, _, _, _, _, h⟩ := xok_bind.1 h
    exact (xok_throw.1 h).elim
  · refine (xcosts_bind (N := bill (response := 1) (internal := 1)) (xcosts_lift costs_error) (by tally) (by tally) (by tally) fun _ => ?_).2
    exact xcosts_throw

theorem xcosts_showError {k n} : XCosts (showError k : AuthM α) n (bill (screen := 1)) := by
  unfold showError
  refine ⟨fun t a h => ?_, ?_⟩
  · obtain ⟨_, _, _, _, _, h⟩ := xok_bind.1 h
    exact (xok_throw.1 h).elim
  · refine (xcosts_bind (N := bill (screen := 1)) (xcosts_lift costs_ask) (by tally) (by tally) (by tally) fun _ => ?_).2
    exact xcosts_throw

theorem xcosts_callback {mode uri st m n} : XCosts (callbackFailed lib r mode uri st m : AuthM α) n answered := by
  unfold callbackFailed
  refine ⟨fun t a h => ?_, ?_⟩
  · obtain ⟨_, _, _, _, _, h⟩ := xok_bind.1 h
    unfold errorTo at h
    obtain ⟨_, _, _, _, _, h⟩ := xok_bind.1 h
    exact (xok_throw.1 h).elim
  · refine (xcosts_bind (N := answered) xcosts_alog (by tally) (by tally) (by tally) fun _ => ?_).2
    exact xcosts_mono xcosts_errorTo (fun _ => Nat.le_refl _) (by tally)

macro_rules | `(tactic| costleaf) => `(tactic| first
  | exact costs_plog | exact xcosts_alog | exact costs_tlog | exact xcosts_glog | exact costs_respond
  | exact costs_success | exact costs_error | exact xcosts_errorTo | exact xcosts_showError | exact xcosts_callback
  | exact costs_ask | exact xcosts_lift costs_ask)

/-- One log line. -/
abbrev oneLine : Tally := bill (log := 1)

theorem xcosts_logThen {p : AuthM α} {lv ev ps m n M} (h : ∀ n, XCosts p n m) (h1 : ∀ k, oneLine k ≤ M k)
    (h2 : ∀ k, m k ≤ M k - oneLine k) (hn : ∀ t a, ¬ XOk p t a) : XCosts (alog lv r ev ps >>= fun _ => p) n M := by
  refine ⟨fun t a h => ?_, (xcosts_bind (N := M) xcosts_alog h1 h1 h1 fun _ => ?_).2⟩
  · obtain ⟨_, _, _, _, _, h⟩ := xok_bind.1 h
    exact (hn _ _ h).elim
  · exact xcosts_mono (h _) (fun _ => Nat.le_refl _) h2

theorem never_errorTo {mode uri typ desc st t} {a : α} : ¬ XOk (errorTo lib r mode uri typ desc st : AuthM α) t a := by
  intro h
  unfold errorTo at h
  obtain ⟨_, _, _, _, _, h⟩ := xok_bind.1 h
  exact (xok_throw.1 h).elim

theorem never_showError {k t} {a : α} : ¬ XOk (showError k : AuthM α) t a := by
  intro h
  unfold showError at h
  obtain ⟨_, _, _, _, _, h⟩ := xok_bind.1 h
  exact (xok_throw.1 h).elim

theorem never_callback {mode uri st m t} {a : α} : ¬ XOk (callbackFailed lib r mode uri st m : AuthM α) t a := by
  intro h
  unfold callbackFailed at h
  obtain ⟨_, _, _, _, _, h⟩ := xok_bind.1 h
  exact never_errorTo h

/-- Walks through a program. -/
macro "xcosts" : tactic => `(tactic| ((try dsimp only); repeat' first
    | exact costs_pure | exact costs_panic | exact xcosts_pure | exact xcosts_throw | exact xcosts_mkpanic
    | (refine xcosts_mono xcosts_errorTo (fun _ => Nat.le_refl _) (by tally))
    | (refine xcosts_mono xcosts_showError (fun _ => Nat.le_refl _) (by tally))
    | (refine xcosts_mono xcosts_callback (fun _ => Nat.le_refl _) (by tally))
    | (refine xcosts_logThen (fun _ => xcosts_errorTo) (by tally) (by tally) fun _ _ => never_errorTo)
    | (refine xcosts_logThen (fun _ => xcosts_showError) (by tally) (by tally) fun _ _ => never_showError)
    | (refine costs_mono (by costleaf) (by tally))
    | (refine xcosts_mono (by costleaf) (by tally) (by tally))
    | (refine costs_bind (by costleaf) (by tally) fun _ => ?_)
    | (refine xcosts_bind (by costleaf) (by tally) (by tally) (by tally) fun _ => ?_)
    | split))

theorem xcosts_findClient {cid} : XCosts (findClient r cid) (bill (lookup := 1)) (bill (lookup := 1) (log := 1) (screen := 1)) := by
  unfold findClient apanic
  xcosts

macro_rules | `(tactic| costleaf) => `(tactic| exact xcosts_findClient)

theorem xcosts_identify : XCosts (identify r) (bill (lookup := 1)) (bill (lookup := 1) (log := 1) (screen := 1)) := by
  unfold identify
  xcosts

/-- What a check of a parameter costs when the parameter is in order. -/
abbrev checked : Tally := bill (log := 1)

theorem xcosts_judgeFlow {u m s} : XCosts (judgeFlow lib r u m s) (bill) answered := by unfold judgeFlow; xcosts
theorem xcosts_pickMode {f u m s} : XCosts (pickMode policy lib r f u m s) checked answered := by unfold pickMode; xcosts
theorem xcosts_checkModeLevel {f u m s} : XCosts (checkModeLevel policy lib r f u m s) checked answered := by unfold checkModeLevel; xcosts
theorem xcosts_checkFlow {f u m s} : XCosts (checkFlow lib r c f u m s) (bill) answered := by unfold checkFlow; xcosts
theorem xcosts_checkDisplay {u m s} : XCosts (checkDisplay lib r u m s) (bill) answered := by unfold checkDisplay; xcosts
theorem xcosts_checkMaxAge {u m s} : XCosts (checkMaxAge policy lib r u m s) (bill) answered := by unfold checkMaxAge; xcosts
theorem xcosts_checkPrompt {u m s} : XCosts (checkPrompt lib r u m s) checked answered := by unfold checkPrompt; xcosts
theorem xcosts_offlineScope {f p u m s} : XCosts (offlineScope policy lib r f p u m s) checked answered := by unfold offlineScope; xcosts
theorem xcosts_checkScope {f i p u m s} : XCosts (checkScope policy lib r c f i p u m s) (bill) answered := by unfold checkScope; xcosts
theorem xcosts_checkNonce {f p u m s} : XCosts (checkNonce policy lib r f p u m s) (bill) answered := by unfold checkNonce; xcosts
theorem xcosts_checkVerifier {u m s} : XCosts (checkVerifier policy lib r u m s) (bill) answered := by unfold checkVerifier; xcosts
theorem xcosts_chooseLocale {u m s} : XCosts (AuthzEndpoint.chooseLocale lib r u m s) (bill (lookup := 1))
    (bill (lookup := 1) (log := 1) (response := 1) (internal := 1)) := by unfold AuthzEndpoint.chooseLocale; xcosts

macro_rules | `(tactic| costleaf) => `(tactic| first
  | exact xcosts_judgeFlow | exact xcosts_pickMode | exact xcosts_checkModeLevel | exact xcosts_checkFlow
  | exact xcosts_checkDisplay | exact xcosts_checkMaxAge | exact xcosts_checkPrompt | exact xcosts_offlineScope
  | exact xcosts_checkScope | exact xcosts_checkNonce | exact xcosts_checkVerifier | exact xcosts_chooseLocale)

theorem xcosts_buildRequest : XCosts (buildRequest policy lib r c) (bill (lookup := 1) (log := 4))
    (bill (lookup := 1) (log := 5) (response := 1) (internal := 1)) := by
  unfold buildRequest
  dsimp only
  refine xcosts_bind xcosts_judgeFlow (by tally) (by tally) (by tally) fun _ => ?_
  refine xcosts_bind xcosts_pickMode (by tally) (by tally) (by tally) fun _ => ?_
  refine xcosts_bind xcosts_checkModeLevel (by tally) (by tally) (by tally) fun _ => ?_
  refine xcosts_bind xcosts_checkFlow (by tally) (by tally) (by tally) fun _ => ?_
  refine xcosts_bind xcosts_checkDisplay (by tally) (by tally) (by tally) fun _ => ?_
  refine xcosts_bind xcosts_checkMaxAge (by tally) (by tally) (by tally) fun _ => ?_
  refine xcosts_bind xcosts_checkPrompt (by tally) (by tally) (by tally) fun _ => ?_
  refine xcosts_bind xcosts_offlineScope (by tally) (by tally) (by tally) fun _ => ?_
  refine xcosts_bind xcosts_checkScope (by tally) (by tally) (by tally) fun _ => ?_
  refine xcosts_bind xcosts_checkNonce (by tally) (by tally) (by tally) fun _ => ?_
  refine xcosts_bind xcosts_checkVerifier (by tally) (by tally) (by tally) fun _ => ?_
  refine xcosts_bind xcosts_chooseLocale (by tally) (by tally) (by tally) fun _ => ?_
  exact xcosts_pure

/-! ### Completing a request -/

theorem costs_completeFail {m} : Costs (completeFail lib r m req) (bill (response := 1) (internal := 1)) := by
  unfold completeFail; xcosts

macro_rules | `(tactic| costleaf) => `(tactic| exact costs_completeFail)

theorem costs_completeCallbackFail {m n} : Costs (completeCallbackFail lib r m req n) answered := by
  unfold completeCallbackFail; xcosts

macro_rules | `(tactic| costleaf) => `(tactic| exact costs_completeCallbackFail)

theorem costs_frontToken {i f k} : Costs (frontToken i f k) (bill (token := 1)) := by unfold frontToken; xcosts

theorem costs_frontIdToken {i f n t k cl} : Costs (frontIdToken policy lib cl i f req n t k) (bill (lookup := 1) (internal := 1)) := by
  unfold frontIdToken; xcosts

macro_rules | `(tactic| costleaf) => `(tactic| first | exact costs_frontToken | exact costs_frontIdToken)

/-- What completing a request costs. -/
abbrev completed : Tally := bill (token := 1) (session := 1) (code := 1) (lookup := 3) (log := 1) (response := 1) (internal := 2)

theorem costs_completeCode {m i} : Costs (completeCode policy lib r m i req)
    (bill (session := 1) (code := 1) (lookup := 1) (log := 1) (response := 1) (internal := 1)) := by
  unfold completeCode; xcosts

theorem costs_completeImplicit {m i f} : Costs (completeImplicit policy lib r m i req f)
    (bill (token := 1) (lookup := 3) (log := 1) (response := 1) (internal := 2)) := by
  unfold completeImplicit; xcosts

theorem costs_completeHybrid {m i f} : Costs (completeHybrid policy lib r m i req f) completed := by
  unfold completeHybrid; xcosts

macro_rules | `(tactic| costleaf) => `(tactic| first | exact costs_completeCode | exact costs_completeImplicit | exact costs_completeHybrid)

theorem costs_complete {m i} : Costs (complete policy lib r m i req) completed := by
  unfold complete; xcosts

macro_rules | `(tactic| costleaf) => `(tactic| first | exact costs_complete)

theorem costs_completeRequest : Costs (completeRequest policy lib r)
    (bill (authorization := 1) (token := 1) (session := 1) (code := 1) (lookup := 5) (log := 1) (response := 1) (internal := 2)) := by
  unfold completeRequest; xcosts

theorem costs_cancelRequest : Costs (cancelRequest lib r) (bill (lookup := 1) (log := 1) (response := 1) (internal := 1)) := by
  unfold cancelRequest; xcosts

end

end Goidc
