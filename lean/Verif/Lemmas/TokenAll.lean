import Verif.Lemmas.FrontAll
import Verif.Lemmas.TokenHandler

/-! # Every call of the token endpoint and of the resource protector -/

namespace Goidc

open Spec TokenEndpoint

variable {α β : Type} {P : Query → Prop} {lib : Lib} {r : Req} {c : Client} {gt : GoStr} {cfg : TokenCfg}

/-- What makes `P` hold of every call of a grant: it holds of log lines filed under the grant type and of
all calls that are no output and issue nothing. -/
structure TokQ (P : Query → Prop) (gt : GoStr) : Prop where
  log : ∀ lv ev ps, P (.log ⟨lv, b!"token_endpoint", gt, ev, ps⟩)
  other : ∀ q : Query, q.isOutput = false → q.issues = false → P q

namespace TokQ

theorem gask (h : TokQ P gt) {q : Query} (hq : q.isOutput = false) (hi : q.issues = false) : AllQ P (gask q).run :=
  allQ_xlift (allQ_ask (h.other q hq hi))
theorem ask (h : TokQ P gt) {q : Query} (hq : q.isOutput = false) (hi : q.issues = false) : AllQ P (Goidc.ask q) := allQ_ask (h.other q hq hi)
theorem tlog (h : TokQ P gt) {lv ev ps} : AllQ P (tlog lv gt ev ps) := allQ_ask (h.log lv ev ps)
theorem glog (h : TokQ P gt) {lv ev ps} : AllQ P (glog lv gt ev ps).run := allQ_xlift h.tlog

end TokQ

/-- Walk through a program of the token endpoint. -/
macro "tok" h:term : tactic => `(tactic| repeat' first
  | with_reducible exact TokQ.glog $h | with_reducible exact TokQ.tlog $h
  | with_reducible exact allQ_xpure | with_reducible exact allQ_pure | with_reducible exact allQ_xthrow
  | with_reducible exact TokQ.gask $h rfl rfl | with_reducible exact TokQ.ask $h rfl rfl
  | with_reducible exact allQ_gpanic
  | (with_reducible refine allQ_xbind ?_ fun _ => ?_) | (with_reducible refine allQ_bind' ?_ fun _ => ?_)
  | split | dsimp only | exact allQ_panic)

namespace TokQ

theorem onErr (h : TokQ P gt) {s e} : AllQ P (onErr gt s e : GrantM α).run := by unfold Goidc.onErr; tok h
theorem checkVal (h : TokQ P gt) {s} {v : Option α × Option ErrType} : AllQ P (checkVal gt s v).run := by
  rcases v with ⟨_ | x, _ | e⟩
  · unfold Goidc.checkVal; tok h
  · exact h.onErr
  · exact allQ_xpure
  · exact h.onErr
theorem checkErr (h : TokQ P gt) {s v} : AllQ P (checkErr gt s v).run := by
  cases v
  · exact allQ_xpure
  · exact h.onErr
theorem needParam (h : TokQ P gt) {n} : AllQ P (Grant.needParam gt c r n).run := by unfold Grant.needParam; tok h
theorem checkScope (h : TokQ P gt) {s} : AllQ P (Grant.checkScope gt c s).run := by unfold Grant.checkScope; tok h
theorem issue (h : TokQ P gt) (hi : ∀ q : Query, q.issues = true → P q) {u s} : AllQ P (Grant.issue gt c u s).run :=
  allQ_xbind (h.gask rfl rfl) fun _ => allQ_xbind h.checkVal fun _ => allQ_xbind (allQ_xlift (allQ_ask (hi _ rfl))) fun _ =>
    allQ_xbind h.checkVal fun _ => allQ_xpure

theorem clientId {c : Option Client} : AllQ P (Assertion.clientId c).run := by cases c <;> trivial
theorem alog (h : TokQ P gt) {lv a} {c : Option Client} : AllQ P (Assertion.alog lv gt a c).run :=
  allQ_xbind clientId fun _ => h.glog
theorem onJwtErr (h : TokQ P gt) {a ve} {c : Option Client} : AllQ P (Assertion.onJwtErr a gt c ve : GrantM α).run := by
  unfold Assertion.onJwtErr
  have ha : ∀ {lv} {e : OAuthError}, AllQ P (do Assertion.alog lv gt a c; throw e : GrantM α).run :=
    allQ_xbind h.alog fun _ => allQ_xthrow
  refine allQ_ite (fun _ => ?_) fun _ => allQ_ite (fun _ => ha) fun _ => allQ_ite (fun _ => ha) fun _ =>
    allQ_ite (fun _ => ha) fun _ => allQ_ite (fun _ => ha) fun _ => ha
  tok h
theorem handle (h : TokQ P gt) {a t e} {c : Option Client} : AllQ P (Assertion.handle a gt c t e).run := by
  unfold Assertion.handle
  split
  · exact h.onJwtErr
  split
  · trivial
  unfold Assertion.checkClaims
  split
  · exact allQ_xbind clientId fun _ => by tok h
  refine allQ_xbind clientId fun _ => allQ_xbind (h.gask rfl rfl) fun _ => allQ_xbind h.checkErr fun _ => ?_
  split
  · tok h
  refine allQ_xbind (h.gask rfl rfl) fun _ => ?_
  split
  · tok h
  split
  · exact allQ_xbind h.alog fun _ => allQ_xthrow
  · trivial

theorem checkPkce (h : TokQ P Grant.typeAuthorizationCode) {s} : AllQ P (Grant.checkPkce lib r c s).run := by
  unfold Grant.checkPkce
  refine allQ_ite (fun _ => allQ_xpure) fun _ => allQ_xbind h.needParam fun _ => allQ_xbind h.needParam fun _ => ?_
  tok h

theorem attachIdToken (h : TokQ P Grant.typeAuthorizationCode) {i s now x} :
    AllQ P (Grant.attachIdToken lib c i s now x).run := by
  unfold Grant.attachIdToken
  tok h

theorem authorizationCode (h : TokQ P Grant.typeAuthorizationCode) (hi : ∀ q : Query, q.issues = true → P q) {now} : AllQ P (Grant.authorizationCode lib r c now).run :=
  allQ_xbind h.needParam fun _ => allQ_xbind h.needParam fun _ => allQ_xbind (h.gask rfl rfl) fun _ =>
  allQ_xbind h.checkVal fun _ => allQ_xbind (h.gask rfl rfl) fun _ => allQ_xbind h.checkVal fun _ =>
  allQ_ite (fun _ => by tok h) fun _ => allQ_ite (fun _ => by tok h) fun _ =>
  allQ_xbind h.checkPkce fun _ => allQ_xbind (allQ_xlift (allQ_ask (hi _ rfl))) fun _ => allQ_xbind h.checkVal fun _ =>
  allQ_xbind (h.gask rfl rfl) fun _ => allQ_xbind h.checkErr fun _ => h.attachIdToken

theorem refreshToken (h : TokQ P Grant.typeRefreshToken) (hi : ∀ q : Query, q.issues = true → P q) {now} : AllQ P (Grant.refreshToken r c now).run :=
  allQ_xbind h.needParam fun _ => allQ_xbind (allQ_xlift (allQ_ask (hi _ rfl))) fun _ => allQ_xbind h.checkVal fun _ =>
  allQ_ite (fun _ => by tok h) fun _ =>
  allQ_xbind (h.gask rfl rfl) fun _ => allQ_xbind h.checkVal fun _ =>
  allQ_ite (fun _ => by tok h) fun _ => allQ_ite (fun _ => by tok h) fun _ =>
  allQ_xbind (allQ_xlift (allQ_ask (hi _ rfl))) fun _ => allQ_xbind h.checkVal fun _ => allQ_xpure

theorem password (h : TokQ P Grant.typePassword) (hi : ∀ q : Query, q.issues = true → P q) {now} : AllQ P (Grant.password r c now).run :=
  allQ_xbind h.needParam fun _ => allQ_xbind h.needParam fun _ => allQ_xbind h.checkScope fun _ =>
  allQ_xbind (h.gask rfl rfl) fun _ => allQ_xbind h.checkErr fun _ => h.issue hi

theorem clientCredentials (h : TokQ P Grant.typeClientCredentials) (hi : ∀ q : Query, q.issues = true → P q) {now} : AllQ P (Grant.clientCredentials r c now).run :=
  allQ_ite (fun _ => by tok h) fun _ => allQ_xbind h.checkScope fun _ => h.issue hi

theorem jwt (h : TokQ P Grant.typeJWT) (hi : ∀ q : Query, q.issues = true → P q) {now} : AllQ P (Grant.jwt lib r c now).run := by
  refine allQ_xbind h.needParam fun _ => allQ_xbind (allQ_xlift (allQ_parse (h.other _ rfl rfl) fun t => ?_)) fun p =>
    allQ_xbind h.handle fun _ => ?_
  · unfold Grant.jwtKeyFunc; split <;> trivial
  · split
    · trivial
    split
    · tok h
    · exact allQ_xbind (h.gask rfl rfl) fun _ => allQ_xbind h.checkErr fun _ => allQ_xbind h.checkScope fun _ => h.issue hi

/-- The built-in grants file their lines under their grant type. -/
theorem builtIn (hi : ∀ q : Query, q.issues = true → P q) (h : ∀ gt ∈ [Grant.typeAuthorizationCode, Grant.typeRefreshToken, Grant.typePassword,
    Grant.typeClientCredentials, Grant.typeJWT], TokQ P gt) {g : GrantFunc} (hb : BuiltIn lib g) {now} : AllQ P (g r c now).run := by
  simp only [List.forall_mem_cons] at h
  obtain ⟨h1, h2, h3, h4, h5, _⟩ := h
  cases hb with
  | authorizationCode => exact h1.authorizationCode hi
  | refreshToken => exact h2.refreshToken hi
  | password => exact h3.password hi
  | clientCredentials => exact h4.clientCredentials hi
  | jwt => exact h5.jwt hi

end TokQ

/-- Every call of the token endpoint: outputs of the endpoint itself, and those of the grants. -/
theorem tokQ_handler (hb : AllBuiltIn lib cfg) (hi : ∀ q : Query, q.issues = true → P q)
    (hw : ∀ e : OAuthError, AllQ P (fail cfg e) ∧ AllQ P (failWithAuthHeader cfg e))
    (hs : ∀ res, AllQ P (success res)) (h405 : P (.write ⟨405, [], []⟩))
    (hc : TokQ P b!"common") (hg : lookupHandler cfg.handlers (r.formValue b!"grant_type") ≠ none → TokQ P (r.formValue b!"grant_type"))
    (h : ∀ gt ∈ [Grant.typeAuthorizationCode, Grant.typeRefreshToken, Grant.typePassword,
      Grant.typeClientCredentials, Grant.typeJWT], TokQ P gt) : AllQ P (handler cfg lib r) := by
  unfold handler
  split
  · exact allQ_bind' hc.tlog fun _ => allQ_ask h405
  dsimp only
  split
  · exact allQ_bind' hc.tlog fun _ => (hw _).1
  split
  · exact allQ_bind' hc.tlog fun _ => (hw _).1
  rename_i g hl
  have hg := hg (by simp [hl])
  have hex : ∀ cl, AllQ P (executeGrantHandler cfg r cl (r.formValue b!"grant_type") g) := by
    intro cl
    refine allQ_bind' (hg.ask rfl rfl) fun now => allQ_bind' (TokQ.builtIn hi h (hb _ _ hl)) fun x => ?_
    cases x with
    | error e => exact (hw _).1
    | ok res => exact allQ_bind' hg.tlog fun _ => hs _
  have hic : ∀ b, AllQ P (failByInvalidClientError cfg b) := by
    intro b; unfold failByInvalidClientError; split
    · exact (hw _).2
    · exact (hw _).1
  split
  · rename_i cid sec b _
    refine allQ_bind' ?_ fun x => ?_
    · unfold validateClientBySecret
      refine allQ_bind' (hg.ask rfl rfl) fun x => ?_
      have hf : ∀ {lv ev ps} {p : Prog Unit}, AllQ P p →
          AllQ P (do tlog lv (r.formValue b!"grant_type") ev ps; p; pure none : Prog (Option Client)) :=
        fun hp => allQ_bind' hg.tlog fun _ => allQ_bind' hp fun _ => trivial
      rcases x with ⟨_ | cl, _ | _ | _ | _ | n⟩ <;> dsimp only
      case some.none =>
        split
        · exact hf (hic _)
        split
        · exact hf (hw _).1
        · trivial
      all_goals first | exact hf (hw _).1 | exact hf (hic _)
    · cases x with
      | none => trivial
      | some cl => exact hex cl
  split
  · rename_i ca _
    refine allQ_bind' ?_ fun x => ?_
    · unfold validateClientByAssertion
      refine allQ_bind' (allQ_parse (hg.other _ rfl rfl) fun t => ?_) fun p => allQ_bind' hg.handle fun x => ?_
      · unfold assertionKeyFunc
        tok hg
      · cases x with
        | error e => exact allQ_bind' (hw _).1 fun _ => trivial
        | ok u => dsimp only; split <;> trivial
    · cases x with
      | none => trivial
      | some cl => exact hex cl
  · exact allQ_bind' hg.tlog fun _ => (hw _).2

/-! ## The protector -/

section protector
open ResourceProtector
variable {cfg : ProtectorCfg}

/-- Every call of `Validate` and `ValidateWithScopes`. -/
theorem protQ (hl : ∀ lv ep ev ps, ep = b!"protected_resource" ∨ ep = b!"token_endpoint" → P (.log ⟨lv, ep, r.path, ev, ps⟩))
    (hu : ∀ e, AllQ P (unauthorize cfg lib e)) (hi : AllQ P internalError) (ho : ∀ q : Query, q.isOutput = false → P q)
    (m : List (GoStr × List GoStr)) :
    AllQ P (validate cfg lib r) ∧ AllQ P (validateWithScopes cfg lib r m) := by
  have h1 : ∀ {lv ev ps} {p : Prog Unit} {a : Bool × Req}, AllQ P p →
      AllQ P (do tlog lv r.path ev ps; p; pure a : Prog (Bool × Req)) :=
    fun hp => allQ_bind' (allQ_ask (hl _ _ _ _ (.inr rfl))) fun _ => allQ_bind' hp fun _ => trivial
  have h2 : ∀ {lv ev ps} {p : Prog Unit} {a : Bool × Req}, AllQ P p →
      AllQ P (do plog lv r.path ev ps; p; pure a : Prog (Bool × Req)) :=
    fun hp => allQ_bind' (allQ_ask (hl _ _ _ _ (.inl rfl))) fun _ => allQ_bind' hp fun _ => trivial
  have hv : AllQ P (validate cfg lib r) := by
    unfold validate
    dsimp only
    split
    · exact h1 (hu _)
    · refine allQ_bind' (allQ_ask (ho _ rfl)) fun x => ?_
      rcases x with ⟨_ | atk, _ | _ | _ | _ | n⟩ <;> dsimp only
      case some.none =>
        refine allQ_bind' (allQ_ask (ho _ rfl)) fun now => ?_
        split
        · exact allQ_bind' (allQ_ask (ho _ rfl)) fun _ => h1 (hu _)
        · refine allQ_bind' (allQ_ask (ho _ rfl)) fun x => ?_
          rcases x with ⟨_ | i, _ | _ | _ | _ | n⟩ <;> dsimp only
          all_goals first
            | trivial
            | exact h1 (hu _)
            | exact h1 hi
            | exact h2 hi
      all_goals first
        | exact h2 (hu _)
        | exact h2 hi
  refine ⟨hv, ?_⟩
  unfold validateWithScopes
  refine allQ_bind' hv fun ⟨ok, r'⟩ => ?_
  dsimp only
  split
  · trivial
  split
  · split
    · trivial
    · exact allQ_bind' (hu _) fun _ => trivial
  · trivial

end protector

end Goidc
