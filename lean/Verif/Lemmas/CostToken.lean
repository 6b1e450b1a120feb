import Verif.Lemmas.CostFront
import Verif.Spec.Grants
import Verif.Lemmas.TokenPhases

/-! # Counting the calls of the token endpoint and of the resource protector -/

namespace Goidc

open Spec

variable {α β ε : Type} {lib : Lib} {r : Req} {c : Client} {cfg : TokenCfg}

theorem costs_bind_run {p : ExceptT ε Prog α} {f : Except ε α → Prog β} {n m N : Tally} (h : XCosts p n m) (hn : ∀ k, n k ≤ N k)
    (hm : ∀ k, m k ≤ N k) (hok : ∀ a, Costs (f (.ok a)) fun k => N k - n k) (herr : ∀ e, Costs (f (.error e)) fun k => N k - m k) :
    Costs (p.run >>= f) N := by
  intro t o hr k
  rcases runs_bind.1 hr with ⟨a, t1, t2, rfl, h1, h2⟩ | ⟨h1, _⟩
  · rw [callCount_append]
    cases a with
    | ok a =>
      have : _ ≤ N k - n k := hok a _ _ h2 k
      have := h.1 _ _ h1 k
      have := hn k
      omega
    | error e =>
      have : _ ≤ N k - m k := herr e _ _ h2 k
      have := h.2.1 _ _ h1 k
      have := hm k
      omega
  · exact Nat.le_trans (h.2.2 _ h1 k) (hm k)

section
open Grant

theorem xcosts_logThrow {lv gt ev ps e n} : XCosts (do glog lv gt ev ps; throw e : GrantM α) n oneLine := by
  refine ⟨fun t a h => ?_, (xcosts_bind (N := oneLine) xcosts_glog (by tally) (by tally) (by tally) fun _ => xcosts_throw).2⟩
  obtain ⟨_, _, _, _, _, h⟩ := xok_bind.1 h
  exact (xok_throw.1 h).elim

theorem xcosts_onErr {gt s e n} : XCosts (onErr gt s e : GrantM α) n oneLine := by
  unfold onErr
  split <;> exact xcosts_logThrow

theorem xcosts_checkVal {gt s} {x : Option α × Option ErrType} : XCosts (checkVal gt s x) (bill) oneLine := by
  unfold checkVal
  split
  · exact xcosts_onErr
  · exact xcosts_pure
  · exact xcosts_logThrow

theorem xcosts_checkErr {gt s x} : XCosts (checkErr gt s x) (bill) oneLine := by
  unfold checkErr
  split
  · exact xcosts_onErr
  · exact xcosts_pure

theorem xcosts_needParam {gt n} : XCosts (needParam gt c r n) (bill) oneLine := by
  unfold needParam
  dsimp only
  split
  · exact xcosts_logThrow
  · exact xcosts_pure

theorem xcosts_gask {q} : XCosts (gask q) (one (kindOf q)) (one (kindOf q)) := xcosts_lift costs_ask

/-- One step of a grant. -/
macro "gstep" h:term : tactic => `(tactic| refine xcosts_bind $h (by tally) (by tally) (by tally) fun _ => ?_)

/-- A refusal at the end of a grant. -/
macro "gend" : tactic => `(tactic| exact xcosts_mono xcosts_logThrow (fun _ => Nat.le_refl _) (by tally))

theorem xcosts_checkPkce {s} : XCosts (checkPkce lib r c s) (bill) oneLine := by
  unfold checkPkce
  dsimp only
  split
  · exact xcosts_pure
  · gstep xcosts_needParam
    gstep xcosts_needParam
    split
    · gend
    · split
      · exact xcosts_pure
      · gend

theorem xcosts_attach {i s n x} : XCosts (attachIdToken lib c i s n x) (bill (lookup := 1) (log := 1)) (bill (lookup := 1) (log := 2)) := by
  unfold attachIdToken
  dsimp only
  split
  · gstep xcosts_glog
    gstep xcosts_gask
    split
    · gend
    · exact xcosts_pure
  · exact xcosts_pure

theorem xcosts_code {now} : XCosts (authorizationCode lib r c now) (bill (lookup := 3) (token := 1) (disable := 1) (log := 1))
    (bill (lookup := 3) (token := 1) (disable := 1) (log := 2)) := by
  unfold authorizationCode
  dsimp only
  gstep xcosts_needParam
  gstep xcosts_needParam
  gstep xcosts_gask
  gstep xcosts_checkVal
  gstep xcosts_gask
  gstep xcosts_checkVal
  split
  · gend
  split
  · gend
  gstep xcosts_checkPkce
  gstep xcosts_gask
  gstep xcosts_checkVal
  gstep xcosts_gask
  gstep xcosts_checkErr
  exact xcosts_mono xcosts_attach (by tally) (by tally)

theorem xcosts_refresh {now} : XCosts (refreshToken r c now) (bill (lookup := 2) (token := 1)) (bill (lookup := 2) (token := 1) (log := 1)) := by
  unfold refreshToken
  dsimp only
  gstep xcosts_needParam
  gstep xcosts_gask
  gstep xcosts_checkVal
  split
  · gend
  gstep xcosts_gask
  gstep xcosts_checkVal
  split
  · gend
  split
  · gend
  gstep xcosts_gask
  gstep xcosts_checkVal
  exact xcosts_pure

theorem xcosts_checkScope' {gt s} : XCosts (Grant.checkScope gt c s) (bill) oneLine := by
  unfold Grant.checkScope
  split
  · gend
  · exact xcosts_pure

theorem xcosts_issue {gt u s} : XCosts (issue gt c u s) (bill (token := 1) (authorization := 1)) (bill (token := 1) (authorization := 1) (log := 1)) := by
  unfold issue
  gstep xcosts_gask
  gstep xcosts_checkVal
  gstep xcosts_gask
  gstep xcosts_checkVal
  exact xcosts_pure

theorem xcosts_password {now} : XCosts (Grant.password r c now) (bill (password := 1) (token := 1) (authorization := 1))
    (bill (password := 1) (token := 1) (authorization := 1) (log := 1)) := by
  unfold Grant.password
  dsimp only
  gstep xcosts_needParam
  gstep xcosts_needParam
  gstep xcosts_checkScope'
  gstep xcosts_gask
  gstep xcosts_checkErr
  exact xcosts_mono xcosts_issue (by tally) (by tally)

theorem xcosts_clientCredentials {now} : XCosts (clientCredentials r c now) (bill (token := 1) (authorization := 1))
    (bill (token := 1) (authorization := 1) (log := 1)) := by
  unfold clientCredentials
  dsimp only
  split
  · gend
  gstep xcosts_checkScope'
  exact xcosts_mono xcosts_issue (by tally) (by tally)

open Assertion in
theorem xcosts_clientId {c : Option Client} {n m} : XCosts (clientId c) n m := by
  unfold clientId gpanic
  split
  · exact xcosts_pure
  · exact xcosts_mkpanic

open Assertion in
theorem xcosts_alogThrow {lv gt a e n} {c : Option Client} : XCosts (do Assertion.alog lv gt a c; throw e : GrantM α) n oneLine := by
  refine ⟨fun t a h => ?_, (xcosts_bind (N := oneLine) (n := oneLine) (m := oneLine) ?_ (by tally) (by tally) (by tally) fun _ => xcosts_throw).2⟩
  · obtain ⟨_, _, _, _, _, h⟩ := xok_bind.1 h
    exact (xok_throw.1 h).elim
  · unfold Assertion.alog
    gstep (xcosts_clientId (n := bill) (m := bill))
    exact xcosts_mono xcosts_glog (by tally) (by tally)

open Assertion in
theorem xcosts_handle {a gt t e} {c : Option Client} : XCosts (handle a gt c t e) (bill (record := 1) (lookup := 1))
    (bill (record := 1) (lookup := 1) (log := 1)) := by
  unfold handle
  split
  · refine xcosts_mono (n := fun _ => 0) (m := oneLine) ?_ (by tally) (by tally)
    unfold onJwtErr
    repeat' first | exact xcosts_logThrow | exact xcosts_alogThrow | split
  · split
    · exact xcosts_mkpanic
    · unfold checkClaims
      split
      · refine xcosts_mono (n := fun _ => 0) (m := oneLine) ?_ (by tally) (by tally)
        refine ⟨fun t a h => ?_, (xcosts_bind (N := oneLine) (xcosts_clientId (n := bill) (m := bill)) (by tally) (by tally) (by tally)
          fun _ => ?_).2⟩
        · obtain ⟨_, _, _, _, _, h⟩ := xok_bind.1 h
          obtain ⟨_, _, _, _, _, h⟩ := xok_bind.1 h
          exact (xok_throw.1 h).elim
        · gend
      · dsimp only
        gstep (xcosts_clientId (n := bill) (m := bill))
        gstep xcosts_gask
        gstep xcosts_checkErr
        split
        · gend
        · gstep xcosts_gask
          split
          · gend
          split
          · exact xcosts_mono xcosts_alogThrow (fun _ => Nat.le_refl _) (by tally)
          · exact xcosts_pure

theorem xcosts_jwt {now} : XCosts (jwt lib r c now) (bill (record := 1) (lookup := 2) (token := 1) (authorization := 1) (internal := 1))
    (bill (record := 1) (lookup := 2) (token := 1) (authorization := 1) (internal := 1) (log := 1)) := by
  unfold jwt
  dsimp only
  gstep xcosts_needParam
  have h : ∀ {a}, Costs (Jwt.parse lib a () (jwtKeyFunc c)) (bill (internal := 1)) :=
    costs_mono (costs_parse (n := bill) fun _ => by unfold jwtKeyFunc; split <;> exact costs_pure) (by tally)
  gstep (xcosts_lift h)
  gstep xcosts_handle
  split
  · exact xcosts_mkpanic
  split
  · gend
  gstep xcosts_gask
  gstep xcosts_checkErr
  gstep xcosts_checkScope'
  exact xcosts_mono xcosts_issue (by tally) (by tally)

/-- The most a grant costs: when it succeeds, and when it does not. -/
abbrev grantOk : Tally := bill (token := 1) (authorization := 1) (disable := 1) (record := 1) (password := 1) (lookup := 3) (log := 1) (internal := 1)
abbrev grantErr : Tally := bill (token := 1) (authorization := 1) (disable := 1) (record := 1) (password := 1) (lookup := 3) (log := 2) (internal := 1)

theorem xcosts_builtIn {h : GrantFunc} (hb : BuiltIn lib h) {now} : XCosts (h r c now) grantOk grantErr := by
  cases hb with
  | authorizationCode => exact xcosts_mono xcosts_code (by tally) (by tally)
  | refreshToken => exact xcosts_mono xcosts_refresh (by tally) (by tally)
  | password => exact xcosts_mono xcosts_password (by tally) (by tally)
  | clientCredentials => exact xcosts_mono xcosts_clientCredentials (by tally) (by tally)
  | jwt => exact xcosts_mono xcosts_jwt (by tally) (by tally)

end

section
open TokenEndpoint

theorem costs_fail {e} : Costs (fail cfg e) (bill (response := 1)) := costs_respond

/-- The most a grant costs, with the response. -/
abbrev executed : Tally := bill (token := 1) (authorization := 1) (disable := 1) (record := 1) (password := 1) (lookup := 3) (log := 2)
  (response := 1) (internal := 2)

theorem costs_execute {h : GrantFunc} (hb : BuiltIn lib h) {gt} : Costs (executeGrantHandler cfg r c gt h) executed := by
  unfold executeGrantHandler
  refine costs_bind costs_ask (by tally) fun now => ?_
  refine costs_bind_run (xcosts_builtIn hb) (by tally) (by tally) (fun a => ?_) fun e => ?_
  · refine costs_bind costs_tlog (by tally) fun _ => ?_
    exact costs_mono costs_respond (by tally)
  · exact costs_mono costs_fail (by tally)

/-- Log, answer, stop. -/
theorem costs_refuse {lv gt ev ps x} : Costs (do tlog lv gt ev ps; respond x; pure (none : Option Client)) (bill (log := 1) (response := 1)) := by
  refine costs_bind costs_tlog (by tally) fun _ => ?_
  refine costs_bind costs_respond (by tally) fun _ => ?_
  exact costs_pure

theorem costs_bySecret {gt i s b} : Costs (validateClientBySecret cfg r gt i s b) (bill (lookup := 1) (log := 1) (response := 1)) := by
  unfold validateClientBySecret failByInvalidClientError fail failWithAuthHeader
  refine costs_bind costs_ask (by tally) fun x => ?_
  split
  · refine costs_bind costs_tlog (by tally) fun _ => ?_
    refine costs_bind (n := bill (response := 1)) ?_ (by tally) fun _ => ?_
    · split <;> exact costs_respond
    · exact costs_pure
  · exact costs_mono costs_refuse (by tally)
  · exact costs_mono costs_refuse (by tally)
  · exact costs_mono costs_refuse (by tally)
  · split
    · refine costs_bind costs_tlog (by tally) fun _ => ?_
      refine costs_bind (n := bill (response := 1)) ?_ (by tally) fun _ => ?_
      · split <;> exact costs_respond
      · exact costs_pure
    split
    · exact costs_mono costs_refuse (by tally)
    · exact costs_pure

theorem costs_keyFunc {gt ca t} : Costs (assertionKeyFunc gt ca t) (bill (lookup := 1) (log := 1)) := by
  unfold assertionKeyFunc
  costs

theorem costs_byAssertion {gt ca} : Costs (validateClientByAssertion cfg lib gt ca)
    (bill (record := 1) (lookup := 2) (log := 2) (response := 1) (internal := 1)) := by
  unfold validateClientByAssertion
  have h : Costs (Jwt.parse lib ca none (assertionKeyFunc gt ca)) (bill (lookup := 1) (log := 1) (internal := 1)) :=
    costs_mono (costs_parse fun _ => costs_keyFunc) (by tally)
  refine costs_bind h (by tally) fun p => ?_
  refine costs_bind_run xcosts_handle (by tally) (by tally) (fun a => ?_) fun e => ?_
  · dsimp only
    split
    · exact costs_pure
    · exact costs_panic
  · refine costs_bind costs_fail (by tally) fun _ => ?_
    exact costs_pure

/-- The most a token request costs. -/
abbrev tokenAll : Tally := bill (token := 1) (authorization := 1) (disable := 1) (record := 2) (password := 1) (lookup := 5) (log := 4)
  (response := 2) (internal := 3)

theorem costs_handler (hb : AllBuiltIn lib cfg) : Costs (handler cfg lib r) tokenAll := by
  have lw : ∀ {lv gt ev ps x}, Costs (do tlog lv gt ev ps; respond x) tokenAll := fun {lv gt ev ps x} => by
    refine costs_bind costs_tlog (by tally) fun _ => ?_
    exact costs_mono costs_respond (by tally)
  unfold handler
  split
  · exact lw
  dsimp only
  split
  · exact lw
  split
  · exact lw
  rename_i hh
  have hbi := hb _ _ hh
  split
  · refine costs_bind costs_bySecret (by tally) fun c => ?_
    cases c with
    | none => exact costs_pure
    | some c => exact costs_mono (costs_execute hbi) (by tally)
  · split
    · refine costs_bind costs_byAssertion (by tally) fun c => ?_
      cases c with
      | none => exact costs_pure
      | some c => exact costs_mono (costs_execute hbi) (by tally)
    · exact lw

end

section
open ResourceProtector

variable {pcfg : ProtectorCfg}

theorem costs_unauthorize {e} : Costs (unauthorize pcfg lib e) (bill (response := 1)) := costs_respond
theorem costs_pplog {lv p ev ps} : Costs (ResourceProtector.plog lv p ev ps) (bill (log := 1)) := costs_mono costs_ask (by tally)

macro_rules | `(tactic| costleaf) => `(tactic| first | exact costs_unauthorize | exact costs_pplog)

theorem costs_admit {i} : Costs (admit r i) (bill) := by
  unfold admit; costs

theorem costs_validateInfo {t k} : Costs (validateInfo pcfg lib r t k) (bill (lookup := 1) (log := 1) (response := 1)) := by
  unfold validateInfo internalError
  refine costs_bind costs_ask (by tally) fun x => ?_
  split
  all_goals first | exact costs_mono costs_admit (by tally) | skip
  all_goals costs

theorem costs_validateToken {t k} : Costs (validateToken pcfg lib r t k) (bill (lookup := 1) (log := 1) (response := 1) (internal := 2)) := by
  unfold validateToken
  refine costs_bind costs_ask (by tally) fun now => ?_
  split
  · costs
  · exact costs_mono costs_validateInfo (by tally)

theorem costs_validate : Costs (validate pcfg lib r) (bill (lookup := 2) (log := 1) (response := 1) (internal := 2)) := by
  unfold validate internalError
  dsimp only
  split
  · costs
  · refine costs_bind costs_ask (by tally) fun x => ?_
    split
    all_goals first | exact costs_mono costs_validateToken (by tally) | skip
    all_goals costs

theorem costs_validateWithScopes {m} : Costs (validateWithScopes pcfg lib r m) (bill (lookup := 2) (log := 1) (response := 2) (internal := 2)) := by
  unfold validateWithScopes
  refine costs_bind costs_validate (by tally) fun x => ?_
  costs

end

end Goidc
