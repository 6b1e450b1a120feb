import Verif.Spec.Audit
import Verif.Lemmas.TokenReply

/-! # Log lines before answers and after failures -/

namespace Goidc

open Spec TokenEndpoint

variable {α β : Type}

/-- The last call was this line. -/
def Last (h : List Event) (l : LogLine) : Prop := ∃ h', h = h' ++ [logged l]

/-- Every answer is sent after calls that stand in the relation `W` to it, and the results stand in the
relation `E` to the calls before. -/
def Aud (W : List Event → HttpResp → Prop) (E : List Event → α → Prop) : List Event → Prog α → Prop
  | h, .ret a => E h a
  | _, .panic => True
  | h, .call q k => (∀ resp, q = .write resp → W h resp) ∧ ∀ r, Aud W E (h ++ [⟨q, r⟩]) (k r)

section
variable {W : List Event → HttpResp → Prop} {h : List Event}

theorem aud_bind {E' : List Event → α → Prop} {E : List Event → β → Prop} {p : Prog α} {f : α → Prog β}
    (hp : Aud W E' h p) (hf : ∀ a t, E' (h ++ t) a → Runs p t (.ok a) → Aud W E (h ++ t) (f a)) : Aud W E h (p.bind f) := by
  induction p generalizing h with
  | ret a =>
    show Aud W E h (f a)
    simpa using hf a [] (by simpa [Aud] using hp) ⟨rfl, rfl⟩
  | panic => exact trivial
  | call q k ih =>
    refine ⟨hp.1, fun r => ih r (hp.2 r) fun a t h1 h2 => ?_⟩
    have := hf a (⟨q, r⟩ :: t) (by simpa using h1) ⟨r, t, rfl, h2⟩
    simpa using this

theorem aud_askBind {q : Query} {f : q.Resp → Prog β} {E : List Event → β → Prop} (hq : q.isWrite = false)
    (hf : ∀ r, Aud W E (h ++ [⟨q, r⟩]) (f r)) : Aud W E h (ask q >>= f) :=
  ⟨fun resp e => (by subst e; cases hq), hf⟩

theorem aud_log {f : Unit → Prog β} {E : List Event → β → Prop} {lv gt ev ps}
    (hf : Aud W E (h ++ [logged ⟨lv, b!"token_endpoint", gt, ev, ps⟩]) (f ())) : Aud W E h (tlog lv gt ev ps >>= f) :=
  ⟨fun _ e => (by cases e), fun _ => hf⟩

theorem aud_respond {resp : HttpResp} (hw : W h resp) : Aud W (fun _ _ => True) h (respond resp) :=
  ⟨fun resp' e => (by cases e; exact hw), fun _ => trivial⟩

theorem aud_silent {p : Prog α} (hq : AllQ (fun q => q.isWrite = false) p) : Aud W (fun _ _ => True) h p := by
  induction p generalizing h with
  | ret a => exact trivial
  | panic => exact trivial
  | call q k ih => exact ⟨fun resp e => (by subst e; cases hq.1), fun r => ih r (hq.2 r)⟩

/-- What `Aud` says about a run. -/
theorem aud_steps {E : List Event → α → Prop} {p : Prog α} {pre resp post}
    (ha : Aud W E h p) (hs : Steps p (pre ++ wrote resp :: post)) : W (h ++ pre) resp := by
  induction p generalizing h pre with
  | ret a => exact absurd (show _ = [] from hs) (by simp)
  | panic => exact absurd (show _ = [] from hs) (by simp)
  | call q k ih =>
    rcases hs with hs | ⟨r, t', ht, hs⟩
    · exact absurd hs (by simp)
    · cases pre with
      | nil =>
        simp only [List.nil_append, List.cons.injEq] at ht
        have hq : q = .write resp := (congrArg Event.q ht.1).symm
        simpa using ha.1 resp hq
      | cons e pre =>
        simp only [List.cons_append, List.cons.injEq] at ht
        obtain ⟨rfl, rfl⟩ := ht
        simpa using ih r (ha.2 r) hs

end

/-! ## Grants -/

/-- The line explains the error, and the error is one of the token endpoint's. -/
def Because (gts : List GoStr) (who : GoStr → Prop) (l : LogLine) (e : OAuthError) : Prop :=
  OkErr e ∧ Explains gts who l (.refused e.type e.description)

/-- The errors of `p` are explained by the line before them. -/
def Blames (gts : List GoStr) (who : GoStr → Prop) (p : GrantM α) : Prop := ∀ W h,
  Aud W (fun h (x : Except OAuthError α) => ∀ e, x = .error e → ∃ l, Last h l ∧ Because gts who l e) h p.run

section
variable {gts : List GoStr} {who : GoStr → Prop}

theorem blames_bind' {p : GrantM α} {f : α → GrantM β} (hp : Blames gts who p) (hf : ∀ a t, XOk p t a → Blames gts who (f a)) :
    Blames gts who (p >>= f) := by
  intro W h
  rw [xrun_bind]
  refine aud_bind (hp W h) fun x t hx hr => ?_
  cases x with
  | error e => exact fun e' he => hx e' (by cases he; rfl)
  | ok a => exact hf a t hr W _

theorem blames_bind {p : GrantM α} {f : α → GrantM β} (hp : Blames gts who p) (hf : ∀ a, Blames gts who (f a)) :
    Blames gts who (p >>= f) := blames_bind' hp fun a _ _ => hf a

theorem blames_pure {a : α} : Blames gts who (pure a : GrantM α) := fun _ _ _ h => (by cases h)
theorem blames_panic : Blames gts who (gpanic : GrantM α) := fun _ _ => trivial
theorem blames_gask {q : Query} (hq : q.isWrite = false) : Blames gts who (gask q) :=
  fun _ _ => ⟨fun resp e => (by subst e; cases hq), fun _ e h => by cases h⟩
theorem blames_glog {lv gt ev ps} : Blames gts who (glog lv gt ev ps) :=
  fun _ _ => ⟨fun resp e => (by cases e), fun _ e h => by cases h⟩
theorem blames_logThrow {lv gt ev ps} {e : OAuthError} (h : Because gts who ⟨lv, b!"token_endpoint", gt, ev, ps⟩ e) :
    Blames gts who (do glog lv gt ev ps; throw e : GrantM α) :=
  fun _ h0 => ⟨fun resp e => (by cases e), fun _ e' h' => by cases h'; exact ⟨_, ⟨h0, rfl⟩, h⟩⟩

theorem blames_ite {c : Prop} [Decidable c] {p q : GrantM α} (h1 : c → Blames gts who p) (h2 : ¬ c → Blames gts who q) :
    Blames gts who (if c then p else q) := by
  split
  · exact h1 ‹_›
  · exact h2 ‹_›

theorem blames_lift {p : Prog α} (hq : AllQ (fun q => q.isWrite = false) p) : Blames gts who (ExceptT.lift p : GrantM α) := by
  intro W h
  rw [xrun_lift]
  exact aud_bind (aud_silent hq) fun a t _ _ e h => (by cases h)

/-- A description that does not begin like that of a missing parameter. -/
theorem not_missing {d : GoStr} (h : d.head? ≠ some 109) : ∀ name, d ≠ b!"missing '" ++ name ++ b!"' parameter" := by
  rintro name rfl
  exact h rfl

theorem because_refused {lv gt ev ps} {ty : OAuthErrorType} {d : GoStr} (ht : tokenErr ty = true) (hg : gt ∈ gts)
    (he : ev ∈ reasons (.refused ty d)) (hl : AtLeast (severity ev) lv) (hd : d.head? ≠ some 109)
    (hc : NamesClient who ⟨lv, b!"token_endpoint", gt, ev, ps⟩ ∨ (ev = .missingParam ∧ ps = [(b!"param", b!"grant_type")]) ∨
      ev ∈ [.invalidHTTPMethod, .unsupportedGrantType, .noCredential, .interfaceUnsupported, .interfaceError] ∨
      (ev = .assertionConditionMismatch ∧ ∃ a, ps = [(b!"assertion", a)])) :
    Because gts who ⟨lv, b!"token_endpoint", gt, ev, ps⟩ (OAuthError.new ty d) :=
  ⟨⟨rfl, ht⟩, rfl, hg, he, hl, fun name h => by simp only [OAuthError.new, Reply.refused.injEq] at h; exact absurd h.2 (not_missing hd name), hc⟩

/-- The lines of the error block of a call explain its errors. -/
structure SiteBlames (who : GoStr → Prop) (s : Site) : Prop where
  uri : s.failError.uri = []
  type : tokenErr s.failError.type = true
  event : s.failEvent ∈ reasons (.refused s.failError.type s.failError.description)
  level : AtLeast (severity s.failEvent) s.failLevel
  desc : s.failError.description.head? ≠ some 109
  failClient : ∃ id, who id ∧ (b!"client_id", id) ∈ s.failParams
  serverClient : ∃ id, who id ∧ (b!"client_id", id) ∈ s.serverParams

theorem blames_onErr {gt s e} (hg : gt ∈ gts) (hs : SiteBlames who s) : Blames gts who (onErr gt s e : GrantM α) := by
  obtain ⟨h1, h2, h3, h4, h5, h6, h7⟩ := hs
  cases e with
  | failed =>
    refine blames_logThrow ⟨⟨h1, h2⟩, rfl, hg, h3, h4, fun name h => ?_, .inl h6⟩
    simp only [Reply.refused.injEq] at h
    exact absurd h.2 (not_missing h5 name)
  | unsupported => exact blames_logThrow (because_refused rfl hg (by decide) (by decide) (by decide) (.inr (.inr (.inl (by simp)))))
  | serverError => exact blames_logThrow (because_refused rfl hg (by decide) (by decide) (by decide) (.inl h7))
  | other n => exact blames_logThrow (because_refused rfl hg (by decide) (by decide) (by decide) (.inl h7))

theorem blames_checkVal {gt s} {v : Option α × Option ErrType} (hg : gt ∈ gts) (hs : SiteBlames who s) : Blames gts who (checkVal gt s v) := by
  rcases v with ⟨_ | x, _ | e⟩
  · exact blames_logThrow (because_refused rfl hg (by decide) (by decide) (by decide) (.inr (.inr (.inl (by simp)))))
  · exact blames_onErr hg hs
  · exact blames_pure
  · exact blames_onErr hg hs

theorem blames_checkErr {gt s} {v : Option ErrType} (hg : gt ∈ gts) (hs : SiteBlames who s) : Blames gts who (checkErr gt s v) := by
  cases v
  · exact blames_pure
  · exact blames_onErr hg hs

theorem blames_needParam {gt c r n} (hw : who (Client.id c)) (hg : gt ∈ gts) : Blames gts who (Grant.needParam gt c r n) := by
  refine blames_ite (fun _ => blames_logThrow ⟨⟨rfl, rfl⟩, rfl, hg, by simp [reasons, OAuthError.new], (show AtLeast .debug .debug by decide), fun name h => ?_, .inl ⟨c.id, hw, by simp [pClient]⟩⟩)
    fun _ => blames_pure
  simp only [OAuthError.new, Reply.refused.injEq, true_and] at h
  rw [List.append_left_inj, List.append_right_inj] at h
  subst h
  exact ⟨rfl, by simp [pParam]⟩

theorem blames_checkScope {gt c s} (hw : who (Client.id c)) (hg : gt ∈ gts) : Blames gts who (Grant.checkScope gt c s) :=
  blames_ite (fun _ => blames_logThrow (because_refused rfl hg (by decide) (by decide) (by decide)
    (.inl ⟨c.id, hw, by simp [pClient]⟩))) fun _ => blames_pure

theorem sb_createInfo {c : Client} (hw : who c.id) : SiteBlames who (Grant.createInfoSite c) := by
  refine ⟨rfl, rfl, ?_, (by decide : AtLeast .debug .debug), ?_, ⟨c.id, hw, ?_⟩, ⟨c.id, hw, ?_⟩⟩ <;>
    simp [Grant.createInfoSite, reasons, OAuthError.simple, OAuthError.new, pClient]

theorem sb_createToken {c : Client} (hw : who c.id) : SiteBlames who (Grant.createTokenSite c) := by
  refine ⟨rfl, rfl, ?_, (by decide : AtLeast .debug .debug), ?_, ⟨c.id, hw, ?_⟩, ⟨c.id, hw, ?_⟩⟩ <;>
    simp [Grant.createTokenSite, reasons, OAuthError.simple, OAuthError.new, pClient]

theorem sb_codeToken {c : Client} (hw : who c.id) : SiteBlames who (Grant.codeTokenSite c) := by
  refine ⟨rfl, rfl, ?_, (by decide : AtLeast .debug .debug), ?_, ⟨c.id, hw, ?_⟩, ⟨c.id, hw, ?_⟩⟩ <;>
    simp [Grant.codeTokenSite, reasons, OAuthError.simple, OAuthError.new, pClient]

theorem sb_sess {c : Client} {code} (hw : who c.id) : SiteBlames who (Grant.sessSite c code) := by
  refine ⟨rfl, rfl, ?_, (by decide : AtLeast .info .info), ?_, ⟨c.id, hw, ?_⟩, ⟨c.id, hw, ?_⟩⟩ <;>
    simp [Grant.sessSite, reasons, OAuthError.simple, OAuthError.new, pClient]

theorem sb_codeInfo {c : Client} {code} (hw : who c.id) : SiteBlames who (Grant.codeInfoSite c code) := by
  refine ⟨rfl, rfl, ?_, (by decide : AtLeast .debug .info), ?_, ⟨c.id, hw, ?_⟩, ⟨c.id, hw, ?_⟩⟩ <;>
    simp [Grant.codeInfoSite, reasons, OAuthError.simple, OAuthError.new, pClient]

theorem sb_disable {c : Client} (hw : who c.id) : SiteBlames who (Grant.disableSite c) := by
  refine ⟨rfl, rfl, ?_, (by decide : AtLeast .error .error), ?_, ⟨c.id, hw, ?_⟩, ⟨c.id, hw, ?_⟩⟩ <;>
    simp [Grant.disableSite, reasons, OAuthError.simple, OAuthError.new, pClient]

theorem sb_refresh {c : Client} {rt} (hw : who c.id) : SiteBlames who (Grant.refreshSite c rt) := by
  refine ⟨rfl, rfl, ?_, (by decide : AtLeast .debug .debug), ?_, ⟨c.id, hw, ?_⟩, ⟨c.id, hw, ?_⟩⟩ <;>
    simp [Grant.refreshSite, reasons, OAuthError.simple, OAuthError.new, pClient]

theorem sb_refreshInfo {c : Client} (hw : who c.id) : SiteBlames who (Grant.refreshInfoSite c) := by
  refine ⟨rfl, rfl, ?_, (by decide : AtLeast .debug .debug), ?_, ⟨c.id, hw, ?_⟩, ⟨c.id, hw, ?_⟩⟩ <;>
    simp [Grant.refreshInfoSite, reasons, OAuthError.simple, OAuthError.new, pClient]

theorem sb_doRefresh {c : Client} (hw : who c.id) : SiteBlames who (Grant.doRefreshSite c) := by
  refine ⟨rfl, rfl, ?_, (by decide : AtLeast .debug .debug), ?_, ⟨c.id, hw, ?_⟩, ⟨c.id, hw, ?_⟩⟩ <;>
    simp [Grant.doRefreshSite, reasons, OAuthError.simple, OAuthError.new, pClient]

theorem sb_user {c : Client} {u p} (hw : who c.id) : SiteBlames who (Grant.userSite c u p) := by
  refine ⟨rfl, rfl, ?_, (by decide : AtLeast .debug .debug), ?_, ⟨c.id, hw, ?_⟩, ⟨c.id, hw, ?_⟩⟩ <;>
    simp [Grant.userSite, reasons, OAuthError.simple, OAuthError.new, pClient]

theorem sb_subject {c : Client} {sub} (hw : who c.id) : SiteBlames who (Grant.subjectSite c sub) := by
  refine ⟨rfl, rfl, ?_, (by decide : AtLeast .debug .debug), ?_, ⟨c.id, hw, ?_⟩, ⟨c.id, hw, ?_⟩⟩ <;>
    simp [Grant.subjectSite, reasons, OAuthError.simple, OAuthError.new, pClient]

theorem sb_record {a cid jti iat exp} (hw : who cid) : SiteBlames who (Assertion.recordSite a cid jti iat exp) := by
  refine ⟨rfl, rfl, ?_, (by decide : AtLeast .debug .info), ?_, ⟨cid, hw, ?_⟩, ⟨cid, hw, ?_⟩⟩ <;>
    simp [Assertion.recordSite, reasons, OAuthError.simple, OAuthError.new, pClient]

theorem blames_issue {gt c uid s} (hw : who (Client.id c)) (hg : gt ∈ gts) : Blames gts who (Grant.issue gt c uid s) :=
  blames_bind (blames_gask rfl) fun _ => blames_bind (blames_checkVal hg (sb_createInfo hw)) fun _ =>
    blames_bind (blames_gask rfl) fun _ => blames_bind (blames_checkVal hg (sb_createToken hw)) fun _ => blames_pure

theorem blames_attachIdToken {lib c info sess now res} (hw : who (Client.id c)) (hg : Grant.typeAuthorizationCode ∈ gts) :
    Blames gts who (Grant.attachIdToken lib c info sess now res) := by
  unfold Grant.attachIdToken
  refine blames_ite (fun _ => blames_bind blames_glog fun _ => blames_bind (blames_gask rfl) fun iss => ?_) fun _ => blames_pure
  split
  · exact blames_logThrow (because_refused rfl hg (by decide) (by decide) (by decide) (.inl ⟨c.id, hw, by simp [pClient]⟩))
  · exact blames_pure

theorem blames_checkPkce {lib r c sess} (hw : who (Client.id c)) (hg : Grant.typeAuthorizationCode ∈ gts) : Blames gts who (Grant.checkPkce lib r c sess) := by
  unfold Grant.checkPkce
  refine blames_ite (fun _ => blames_pure) fun _ => blames_bind (blames_needParam hw hg) fun cm => blames_bind (blames_needParam hw hg) fun cc => ?_
  split
  · exact blames_logThrow (because_refused rfl hg (by simp [reasons]) (by decide) (by simp) (.inl ⟨c.id, hw, by simp [pClient]⟩))
  · exact blames_ite (fun _ => blames_pure) fun _ =>
      blames_logThrow (because_refused rfl hg (by simp [reasons]) (by decide) (by simp) (.inl ⟨c.id, hw, by simp [pClient]⟩))

theorem blames_code {lib r c now} (hw : who (Client.id c)) (hg : Grant.typeAuthorizationCode ∈ gts) : Blames gts who (Grant.authorizationCode lib r c now) := by
  unfold Grant.authorizationCode
  refine blames_bind (blames_needParam hw hg) fun uri => blames_bind (blames_needParam hw hg) fun code => blames_bind (blames_gask rfl) fun _ =>
    blames_bind (blames_checkVal hg (sb_sess hw)) fun sess => blames_bind (blames_gask rfl) fun _ => blames_bind (blames_checkVal hg (sb_codeInfo hw)) fun info => ?_
  refine blames_ite (fun _ => ?_) fun _ => blames_ite (fun _ => ?_) fun _ => ?_
  · exact blames_logThrow (because_refused rfl hg (by decide) (by decide) (by decide) (.inl ⟨c.id, hw, by simp [pClient]⟩))
  · exact blames_logThrow (because_refused rfl hg (by simp [reasons]) (by decide) (by simp) (.inl ⟨c.id, hw, by simp [pClient]⟩))
  · exact blames_bind (blames_checkPkce hw hg) fun _ => blames_bind (blames_gask rfl) fun _ => blames_bind (blames_checkVal hg (sb_codeToken hw)) fun _ =>
      blames_bind (blames_gask rfl) fun _ => blames_bind (blames_checkErr hg (sb_disable hw)) fun _ => blames_attachIdToken hw hg

theorem blames_refresh {r c now} (hw : who (Client.id c)) (hg : Grant.typeRefreshToken ∈ gts) : Blames gts who (Grant.refreshToken r c now) := by
  unfold Grant.refreshToken
  refine blames_bind (blames_needParam hw hg) fun rt => blames_bind (blames_gask rfl) fun _ => blames_bind (blames_checkVal hg (sb_refresh hw)) fun old => ?_
  refine blames_ite (fun _ => ?_) fun _ => ?_
  · exact blames_logThrow (because_refused rfl hg (by decide) (by decide) (by decide) (.inl ⟨c.id, hw, by simp [pClient]⟩))
  refine blames_bind (blames_gask rfl) fun _ => blames_bind (blames_checkVal hg (sb_refreshInfo hw)) fun info => ?_
  refine blames_ite (fun _ => ?_) fun _ => blames_ite (fun _ => ?_) fun _ => ?_
  · exact blames_logThrow (because_refused rfl hg (by decide) (by decide) (by decide) (.inl ⟨c.id, hw, by simp [pClient]⟩))
  · exact blames_logThrow (because_refused rfl hg (by decide) (by decide) (by decide) (.inl ⟨c.id, hw, by simp [pClient]⟩))
  · exact blames_bind (blames_gask rfl) fun _ => blames_bind (blames_checkVal hg (sb_doRefresh hw)) fun _ => blames_pure

theorem blames_password {r c now} (hw : who (Client.id c)) (hg : Grant.typePassword ∈ gts) : Blames gts who (Grant.password r c now) :=
  blames_bind (blames_needParam hw hg) fun _ => blames_bind (blames_needParam hw hg) fun _ => blames_bind (blames_checkScope hw hg) fun _ =>
    blames_bind (blames_gask rfl) fun _ => blames_bind (blames_checkErr hg (sb_user hw)) fun _ => blames_issue hw hg

theorem blames_client {r c now} (hw : who (Client.id c)) (hg : Grant.typeClientCredentials ∈ gts) : Blames gts who (Grant.clientCredentials r c now) :=
  blames_ite (fun _ => blames_logThrow (because_refused rfl hg (by decide) (by decide) (by decide) (.inl ⟨c.id, hw, by simp [pClient]⟩)))
    fun _ => blames_bind (blames_checkScope hw hg) fun _ => blames_issue hw hg

/-! ## Assertions -/

theorem blames_alog {lv gt a} {c : Option Client} (hw : ∀ d, c = some d → who d.id) {e : OAuthErrorType} {d : GoStr} (hg : gt ∈ gts) (ht : tokenErr e = true)
    (he : .assertionConditionMismatch ∈ reasons (.refused e d)) (hd : d.head? ≠ some 109) :
    Blames gts who (do Assertion.alog lv gt a c; throw (OAuthError.new e d) : GrantM α) := by
  cases c with
  | none => exact fun _ _ => trivial
  | some c =>
    have hw := hw c rfl
    exact blames_logThrow (α := α) (lv := lv) (ps := [(b!"assertion", a), (b!"client_id", c.id)])
      (because_refused ht hg he (by cases lv <;> decide) hd (.inl ⟨c.id, hw, by simp⟩))

theorem blames_onJwtErr {a gt} {c : Option Client} {ve : Jwt.VErr} (hw : ∀ d, c = some d → who d.id) (hg : gt ∈ gts)
    (hi : ∀ e, ve.inner = some e → ∃ ty d, e = OAuthError.new ty d ∧ tokenErr ty = true ∧
      LogEvent.assertionConditionMismatch ∈ reasons (.refused ty d) ∧ d.head? ≠ some 109) :
    Blames gts who (Assertion.onJwtErr a gt c ve : GrantM α) := by
  unfold Assertion.onJwtErr
  refine blames_ite (fun _ => ?_) fun _ => blames_ite (fun _ => ?_) fun _ => blames_ite (fun _ => ?_) fun _ =>
    blames_ite (fun _ => ?_) fun _ => blames_ite (fun _ => ?_) fun _ => ?_
  · split
    · rename_i e he
      obtain ⟨ty, d, rfl, h1, h2, h3⟩ := hi e he
      exact blames_logThrow (because_refused h1 hg h2 (by decide) h3 (.inr (.inr (.inr ⟨rfl, _, rfl⟩))))
    · exact blames_logThrow (because_refused rfl hg (by decide) (by decide) (by decide) (.inr (.inr (.inr ⟨rfl, _, rfl⟩))))
  all_goals exact blames_alog hw hg rfl (by decide) (by decide)

theorem blames_clientId {c : Client} {f : GoStr → GrantM β} (hf : Blames gts who (f c.id)) :
    Blames gts who (Assertion.clientId (some c) >>= f) := hf

theorem blames_checkClaims {a gt} {c : Option Client} {tk} (hw : ∀ d, c = some d → who d.id) (hg : gt ∈ gts) :
    Blames gts who (Assertion.checkClaims a gt c tk) := by
  cases c with
  | none =>
    unfold Assertion.checkClaims
    split <;> exact fun _ _ => trivial
  | some c =>
    have hw' : who c.id := hw c rfl
    unfold Assertion.checkClaims
    split
    · exact blames_clientId (blames_logThrow (because_refused rfl hg (by decide) (by decide) (by decide) (.inl ⟨c.id, hw', by simp⟩)))
    · refine blames_clientId (blames_bind (blames_gask rfl) fun _ => blames_bind (blames_checkErr hg (sb_record hw')) fun _ => ?_)
      dsimp only
      split
      · exact blames_logThrow (because_refused rfl hg (by decide) (by decide) (by decide) (.inl ⟨c.id, hw', by simp⟩))
      · refine blames_bind (blames_gask rfl) fun service => ?_
        refine blames_ite (fun _ => ?_) fun _ => blames_ite (fun _ => ?_) fun _ => blames_pure
        · exact blames_logThrow (because_refused rfl hg (by decide) (by decide) (by decide) (.inr (.inr (.inl (by simp)))))
        · exact blames_alog hw hg rfl (by simp [reasons]) (by simp)

theorem blames_handle {a gt} {c : Option Client} {tk ve} (hw : ∀ d, c = some d → who d.id) (hg : gt ∈ gts)
    (hi : ∀ v, ve = some v → ∀ e, v.inner = some e → ∃ ty d, e = OAuthError.new ty d ∧ tokenErr ty = true ∧
      LogEvent.assertionConditionMismatch ∈ reasons (.refused ty d) ∧ d.head? ≠ some 109) :
    Blames gts who (Assertion.handle a gt c tk ve) := by
  unfold Assertion.handle
  split
  · exact blames_onJwtErr hw hg (hi _ rfl)
  · split
    · exact blames_panic
    · exact blames_checkClaims hw hg

theorem parse_inner {σ : Type} {lib a} {s0 : σ} {kf : JwtToken → Prog (Jwt.KeyRes × σ)} {t tk ve s1 e}
    (h : Runs (Jwt.parse lib a s0 kf) t (.ok (tk, some ve, s1))) (he : ve.inner = some e) :
    ∃ tok t', Runs (kf tok) t' (.ok (.oauthErr e, s1)) := by
  unfold Jwt.parse at h
  split at h
  · cases h.2; cases he
  · rename_i tok _
    split at h
    · cases h.2; cases he
    · rw [Prog.bind_eq, runs_bind] at h
      rcases h with ⟨⟨kr, s2⟩, t1, t2, rfl, h1, h2⟩ | ⟨_, h⟩
      · cases kr with
        | oauthErr e' =>
          have h3 := (show Runs (.ret _) t2 _ from h2).2
          cases h3
          cases he
          exact ⟨tok, t1, h1⟩
        | err =>
          have h3 := (show Runs (.ret _) t2 _ from h2).2
          cases h3; cases he
        | key k =>
          obtain ⟨now, t3, rfl, h3⟩ := runs_bind_ask.1 (show Runs ((ask .wallNow).bind _) t2 _ from h2)
          have h4 := h3.2
          simp only [Outcome.ok.injEq, Prod.mk.injEq] at h4
          obtain ⟨_, h4, _⟩ := h4
          split at h4
          · cases h4
          · cases h4; cases he
      · cases h

theorem silent_parse {σ : Type} {lib a} {s0 : σ} {kf : JwtToken → Prog (Jwt.KeyRes × σ)}
    (hk : ∀ tk, AllQ (fun q => q.isWrite = false) (kf tk)) : AllQ (fun q => q.isWrite = false) (Jwt.parse lib a s0 kf) := by
  unfold Jwt.parse
  split
  · exact trivial
  · split
    · exact trivial
    · refine allQ_bind (hk _) fun ⟨kr, s1⟩ => ?_
      cases kr with
      | oauthErr e => exact trivial
      | err => exact trivial
      | key k => exact allQ_bind (allQ_ask rfl) fun _ => trivial

theorem blames_jwt {lib r c now} (hw : who (Client.id c)) (hg : Grant.typeJWT ∈ gts) : Blames gts who (Grant.jwt lib r c now) := by
  unfold Grant.jwt
  refine blames_bind (blames_needParam hw hg) fun a => blames_bind' (blames_lift (silent_parse fun tk => ?_)) fun p t hp => ?_
  · unfold Grant.jwtKeyFunc
    split <;> exact trivial
  · rw [xok_lift] at hp
    obtain ⟨tk, ve, u⟩ := p
    refine blames_bind (blames_handle (by rintro _ ⟨⟩; exact hw) hg fun v hv e he => ?_) fun _ => ?_
    · dsimp only at hv
      subst hv
      obtain ⟨tok, t', h⟩ := parse_inner hp he
      unfold Grant.jwtKeyFunc at h
      split at h <;> cases h.2
    · dsimp only
      split
      · exact blames_panic
      · split
        · exact blames_logThrow (because_refused rfl hg (by decide) (by decide) (by decide) (.inl ⟨c.id, hw, by simp [pClient]⟩))
        · exact blames_bind (blames_gask rfl) fun _ => blames_bind (blames_checkErr hg (sb_subject hw)) fun _ =>
            blames_bind (blames_checkScope hw hg) fun _ => blames_issue hw hg

theorem blames_grant {lib r c now} (hw : who (Client.id c)) (kind : GrantKind) (hg : kind.name ∈ gts) : Blames gts who (kind.handler lib r c now) := by
  cases kind
  · exact blames_code hw hg
  · exact blames_refresh hw hg
  · exact blames_password (now := now) hw hg
  · exact blames_client (now := now) hw hg
  · exact blames_jwt (now := now) hw hg

end

/-! ## The endpoint -/

section
variable {cfg : TokenCfg} {lib : Lib} {r : Req} {kind : GrantKind} {gts : List GoStr}

/-- The last line explains the answer. -/
def Tells (cfg : TokenCfg) (gts : List GoStr) (h : List Event) (resp : HttpResp) : Prop :=
  ∃ h' l e, h = h' ++ [logged l] ∧ Says cfg resp e ∧ Explains gts (ClientIn h) l e

theorem explains_mono {who who' : GoStr → Prop} {l e} (h : Explains gts who l e) (hw : ∀ id, who id → who' id) : Explains gts who' l e :=
  ⟨h.endpoint, h.realm, h.event, h.severe, h.missing, h.client.imp_left fun ⟨id, h1, h2⟩ => ⟨id, hw id h1, h2⟩⟩

variable {h : List Event} {who : GoStr → Prop}

theorem aud_fail {l : LogLine} {e : OAuthError} (hl : Last h l) (hb : Because gts who l e) (hw : ∀ id, who id → ClientIn h id) :
    Aud (Tells cfg gts) (fun _ _ => True) h (fail cfg e) := by
  obtain ⟨h', rfl⟩ := hl
  exact aud_respond ⟨_, _, _, rfl, says_fail hb.1, explains_mono hb.2 hw⟩

theorem aud_none {p : Prog Unit} {E : List Event → Option Client → Prop} (hp : Aud (Tells cfg gts) (fun _ _ => True) h p) (he : ∀ h, E h none) :
    Aud (Tells cfg gts) E h (p >>= fun _ => (pure none : Prog (Option Client))) :=
  aud_bind hp fun _ _ _ _ => he _

theorem aud_logFail {lv gt ev ps} {e : OAuthError} {E : List Event → Option Client → Prop}
    (hb : Because gts (ClientIn h) ⟨lv, b!"token_endpoint", gt, ev, ps⟩ e) (he : ∀ h, E h none) :
    Aud (Tells cfg gts) E h (tlog lv gt ev ps >>= fun _ => fail cfg e >>= fun _ => (pure none : Prog (Option Client))) :=
  aud_log (aud_none (aud_fail ⟨_, rfl⟩ hb fun id hi => (by obtain ⟨cid, x, h1, h2⟩ := hi; exact ⟨cid, x, by simp [h1], h2⟩)) he)

theorem aud_logInvalid {lv gt ev ps b} {E : List Event → Option Client → Prop} (hg : gt ∈ gts)
    (he : ev ∈ [LogEvent.noEnabledClient, .authenticationFailed]) (hl : AtLeast (severity ev) lv)
    (hc : ∃ id, ClientIn h id ∧ (b!"client_id", id) ∈ ps) (hE : ∀ h, E h none) :
    Aud (Tells cfg gts) E h (tlog lv gt ev ps >>= fun _ => failByInvalidClientError cfg b >>= fun _ => (pure none : Prog (Option Client))) := by
  have hm : ∀ id, ClientIn h id → ClientIn (h ++ [logged ⟨lv, b!"token_endpoint", gt, ev, ps⟩]) id :=
    fun id ⟨cid, x, h1, h2⟩ => ⟨cid, x, by simp [h1], h2⟩
  refine aud_log (aud_none ?_ hE)
  unfold failByInvalidClientError
  obtain ⟨id, hi, hp⟩ := hc
  split
  · refine aud_respond ⟨_, _, .challenged, rfl, says_challenge, rfl, hg, ?_, hl, fun _ h => (by cases h), .inl ⟨id, hm id hi, hp⟩⟩
    simp only [List.mem_cons, List.not_mem_nil, or_false] at he
    rcases he with rfl | rfl <;> simp [reasons]
  · refine aud_fail ⟨_, rfl⟩ (because_refused (d := []) (who := ClientIn h) rfl hg ?_ hl (by decide) (.inl ⟨id, hi, hp⟩)) hm
    simp only [List.mem_cons, List.not_mem_nil, or_false] at he
    rcases he with rfl | rfl <;> simp [reasons]

/-- The client was found. -/
def FoundIn (h : List Event) (x : Option Client) : Prop := ∀ c, x = some c → ∃ cid, ⟨.findClientById cid, (some c, none)⟩ ∈ h

theorem found_none : ∀ h, FoundIn h none := fun _ _ h => (by cases h)

theorem aud_bySecret {gt cid sec b} (hg : gt ∈ gts) :
    Aud (Tells cfg gts) FoundIn h (validateClientBySecret cfg r gt cid sec b) := by
  unfold validateClientBySecret
  refine aud_askBind rfl fun ⟨c, e⟩ => ?_
  have hw : ClientIn (h ++ [⟨.findClientById cid, (c, e)⟩]) cid := ⟨cid, (c, e), by simp, .inl rfl⟩
  rcases e with _ | e
  · rcases c with _ | c
    · exact aud_logFail (because_refused rfl hg (by decide) (by decide) (by decide) (.inl ⟨cid, hw, by simp⟩)) found_none
    · dsimp only
      split
      · exact aud_logInvalid hg (by simp) (by decide) ⟨cid, hw, by simp⟩ found_none
      · split
        · exact aud_logFail (because_refused rfl hg (by decide) (by decide) (by decide) (.inl ⟨cid, hw, by simp⟩)) found_none
        · exact fun c' hc => (by cases hc; exact ⟨cid, by simp⟩)
  · cases e
    · exact aud_logFail (because_refused rfl hg (by decide) (by decide) (by decide) (.inr (.inr (.inl (by simp))))) found_none
    · exact aud_logFail (because_refused rfl hg (by decide) (by decide) (by decide) (.inl ⟨cid, hw, by simp⟩)) found_none
    · exact aud_logInvalid hg (by simp) (by decide) ⟨cid, hw, by simp⟩ found_none
    · exact aud_logFail (because_refused rfl hg (by decide) (by decide) (by decide) (.inl ⟨cid, hw, by simp⟩)) found_none

theorem assertionKeyFunc_inner {gt ca tk t e c} (h : Runs (assertionKeyFunc gt ca tk) t (.ok (.oauthErr e, c))) :
    ∃ ty d, e = OAuthError.new ty d ∧ tokenErr ty = true ∧
      LogEvent.assertionConditionMismatch ∈ reasons (.refused ty d) ∧ d.head? ≠ some 109 := by
  unfold assertionKeyFunc at h
  split at h
  · obtain ⟨t', rfl, h'⟩ := runs_tlog_bind.1 h
    have h2 := h'.2; cases h2
    exact ⟨_, _, rfl, rfl, by simp [reasons], by decide⟩
  · rw [Prog.bind_eq, runs_bind_ask] at h
    obtain ⟨⟨c1, e1⟩, t5, rfl, h⟩ := h
    rcases e1 with _ | e1
    · rcases c1 with _ | c1
      · obtain ⟨t', rfl, h'⟩ := runs_tlog_bind.1 h
        have h2 := h'.2; cases h2
        exact ⟨_, _, rfl, rfl, by simp [reasons], by decide⟩
      · dsimp only at h
        split at h
        · obtain ⟨t', rfl, h'⟩ := runs_tlog_bind.1 h
          have h2 := h'.2; cases h2
        · cases h.2
    · cases e1 <;>
      · obtain ⟨t', rfl, h'⟩ := runs_tlog_bind.1 h
        have h2 := h'.2; cases h2
        exact ⟨_, _, rfl, rfl, by simp [reasons], by decide⟩

theorem silent_assertionKeyFunc {gt ca tk} : AllQ (fun q => q.isWrite = false) (assertionKeyFunc gt ca tk) := by
  unfold assertionKeyFunc
  have hl : ∀ {lv ev ps} {x : Jwt.KeyRes × Option Client},
      AllQ (fun q => q.isWrite = false) (tlog lv gt ev ps >>= fun _ => (pure x : Prog (Jwt.KeyRes × Option Client))) :=
    allQ_bind (allQ_ask rfl) fun _ => trivial
  split
  · exact hl
  · refine allQ_bind (allQ_ask rfl) fun ⟨c, e⟩ => ?_
    rcases e with _ | e
    · rcases c with _ | c
      · exact hl
      · dsimp only
        split
        · exact hl
        · exact trivial
    · cases e <;> exact hl

/-- The client of the key function was looked up. -/
theorem assertionKeyFunc_client {gt ca tk t kr c} (hr : Runs (assertionKeyFunc gt ca tk) t (.ok (kr, some c))) :
    ∃ cid x, ⟨.findClientById cid, (some c, x)⟩ ∈ t ∧ (∀ k, kr = .key k → x = none) := by
  unfold assertionKeyFunc at hr
  split at hr
  · obtain ⟨t', rfl, h'⟩ := runs_tlog_bind.1 hr
    have h2 := h'.2; cases h2
  · rename_i sub _
    rw [Prog.bind_eq, runs_bind_ask] at hr
    obtain ⟨⟨c1, e1⟩, t5, rfl, hr⟩ := hr
    rcases e1 with _ | e1
    · rcases c1 with _ | c1
      · obtain ⟨t', rfl, h'⟩ := runs_tlog_bind.1 hr
        have h2 := h'.2; cases h2
      · dsimp only at hr
        split at hr
        · obtain ⟨t', rfl, h'⟩ := runs_tlog_bind.1 hr
          have h2 := h'.2; cases h2
          exact ⟨sub, none, by simp, fun _ h => (by cases h)⟩
        · cases hr.2
          exact ⟨sub, none, by simp, fun _ _ => rfl⟩
    · cases e1 <;>
      · obtain ⟨t', rfl, h'⟩ := runs_tlog_bind.1 hr
        have h2 := h'.2; cases h2
        exact ⟨sub, _, List.mem_cons_self, fun _ h => (by cases h)⟩

theorem parse_client {gt ca t tk ve c} (hr : Runs (Jwt.parse lib ca none (assertionKeyFunc gt ca)) t (.ok (tk, ve, some c))) :
    (∃ cid, ⟨.findClientById cid, (some c, none)⟩ ∈ t) ∨ ∃ v, ve = some v ∧ v.unverifiable = true := by
  unfold Jwt.parse at hr
  split at hr
  · cases hr.2
  · rename_i tok _
    split at hr
    · cases hr.2
    · rw [Prog.bind_eq, runs_bind] at hr
      rcases hr with ⟨⟨kr, s2⟩, t1, t2, rfl, h1, h2⟩ | ⟨_, h⟩
      · cases kr with
        | oauthErr e' =>
          have h3 := (show Runs (.ret _) t2 _ from h2).2
          cases h3
          exact .inr ⟨_, rfl, rfl⟩
        | err =>
          have h3 := (show Runs (.ret _) t2 _ from h2).2
          cases h3
          exact .inr ⟨_, rfl, rfl⟩
        | key k =>
          obtain ⟨now, t3, rfl, h3⟩ := runs_bind_ask.1 (show Runs ((ask .wallNow).bind _) t2 _ from h2)
          have h4 := h3.2
          simp only [Outcome.ok.injEq, Prod.mk.injEq] at h4
          obtain ⟨_, _, rfl⟩ := h4
          obtain ⟨cid, x, hm, hx⟩ := assertionKeyFunc_client h1
          obtain rfl := hx k rfl
          exact .inl ⟨cid, by simp [hm]⟩
      · cases h

theorem aud_of_blames {p : GrantM α} {f : Except OAuthError α → Prog β} {E : List Event → β → Prop} (hb : Blames gts who p)
    (hok : ∀ t a, XOk p t a → Aud (Tells cfg gts) E (h ++ t) (f (.ok a)))
    (herr : ∀ t l e, Last (h ++ t) l → Because gts who l e → Aud (Tells cfg gts) E (h ++ t) (f (.error e))) :
    Aud (Tells cfg gts) E h (p.run >>= f) := by
  refine aud_bind (hb _ _) fun x t hx hr => ?_
  cases x with
  | ok a => exact hok t a hr
  | error e =>
    obtain ⟨l, hl, hb⟩ := hx e rfl
    exact herr t l e hl hb

theorem clientIn_append {t id} (hc : ClientIn h id) : ClientIn (h ++ t) id := by
  obtain ⟨cid, x, h1, h2⟩ := hc
  exact ⟨cid, x, by simp [h1], h2⟩

/-- An unverifiable assertion is explained without naming the client. -/
theorem blames_unverifiable {a gt c tk ve} (hg : gt ∈ gts) (hu : ve.unverifiable = true)
    (hi : ∀ e, ve.inner = some e → ∃ ty d, e = OAuthError.new ty d ∧ tokenErr ty = true ∧
      LogEvent.assertionConditionMismatch ∈ reasons (.refused ty d) ∧ d.head? ≠ some 109) :
    Blames gts who (Assertion.handle a gt c tk (some ve)) := by
  show Blames gts who (Assertion.onJwtErr a gt c ve)
  unfold Assertion.onJwtErr
  rw [if_pos hu]
  split
  · rename_i e he
    obtain ⟨ty, d, rfl, h1, h2, h3⟩ := hi e he
    exact blames_logThrow (because_refused h1 hg h2 (by decide) h3 (.inr (.inr (.inr ⟨rfl, _, rfl⟩))))
  · exact blames_logThrow (because_refused rfl hg (by decide) (by decide) (by decide) (.inr (.inr (.inr ⟨rfl, _, rfl⟩))))

theorem aud_byAssertion {gt ca} (hg : gt ∈ gts) :
    Aud (Tells cfg gts) FoundIn h (validateClientByAssertion cfg lib gt ca) := by
  unfold validateClientByAssertion
  refine aud_bind (aud_silent (silent_parse fun _ => silent_assertionKeyFunc)) fun p t _ hp => ?_
  obtain ⟨tk, ve, c⟩ := p
  have hi : ∀ v, ve = some v → ∀ e, v.inner = some e → ∃ ty d, e = OAuthError.new ty d ∧ tokenErr ty = true ∧
      LogEvent.assertionConditionMismatch ∈ reasons (.refused ty d) ∧ d.head? ≠ some 109 := by
    rintro v rfl e he
    obtain ⟨tok, t', hk⟩ := parse_inner hp he
    exact assertionKeyFunc_inner hk
  by_cases hu : ∃ v, ve = some v ∧ v.unverifiable = true
  · obtain ⟨v, rfl, hu⟩ := hu
    refine aud_of_blames (who := fun _ => False) (blames_unverifiable hg hu (hi v rfl)) (fun t' a ha => ?_) fun t' l e hl hb => ?_
    · exact absurd ha (by show ¬ XOk (Assertion.onJwtErr _ _ _ _) _ _; rw [xok_onJwtErr]; exact id)
    · exact aud_none (aud_fail hl hb fun _ h => h.elim) found_none
  · have hc : ∀ d, c = some d → ∃ cid, ⟨.findClientById cid, (some d, none)⟩ ∈ t := by
      rintro d rfl
      exact (parse_client hp).resolve_right hu
    refine aud_of_blames (who := fun id => ∃ d, c = some d ∧ id = d.id) (blames_handle (fun d hd => ⟨d, hd, rfl⟩) hg hi) (fun t' a _ => ?_)
      fun t' l e hl hb => ?_
    · cases c with
      | none => exact trivial
      | some d =>
        rintro d' ⟨⟩
        obtain ⟨cid, hm⟩ := hc d rfl
        exact ⟨cid, by simp [hm]⟩
    · refine aud_none (aud_fail hl hb fun id hid => clientIn_append ?_) found_none
      obtain ⟨d, hd, rfl⟩ := hid
      obtain ⟨cid, hm⟩ := hc d hd
      exact ⟨cid, _, by simp [hm], .inr ⟨d, rfl, rfl⟩⟩

theorem aud_execute {c gt} (hg : gt ∈ gts) (hk : kind.name ∈ gts) (hc : ClientIn h c.id) :
    Aud (Tells cfg gts) (fun _ _ => True) h (executeGrantHandler cfg r c gt (kind.handler lib)) := by
  unfold executeGrantHandler
  refine aud_askBind rfl fun now => ?_
  refine aud_of_blames (who := fun id => id = c.id) (blames_grant (who := fun id => id = c.id) rfl kind hk) (fun t res hr => ?_) fun t l e hl hb => ?_
  · have k := (gy_grant kind _ _ hr).1 res rfl
    rw [table_bind] at k
    rcases k with ⟨_, k, _⟩ | ⟨c1, c2, y, _, k1, rfl, k2⟩
    · cases k
    · cases k2
      exact aud_log (aud_respond ⟨_, _, _, rfl, says_success (y := y), rfl, hg, by simp [reasons], (show AtLeast .debug .debug by decide),
        fun _ h => (by cases h), .inl ⟨c.id, clientIn_append (clientIn_append (clientIn_append hc)), by simp [pClient]⟩⟩)
  · exact aud_fail hl hb fun id hid => by subst hid; exact clientIn_append (clientIn_append hc)

theorem found_client {c : Client} (hf : FoundIn h (some c)) : ClientIn h c.id := by
  obtain ⟨cid, hm⟩ := hf c rfl
  exact ⟨cid, _, hm, .inr ⟨c, rfl, rfl⟩⟩

theorem aud_handler (hk : ∀ h, Registered cfg r h → h = kind.handler lib)
    (h1 : ¬ Recognized cfg r → b!"common" ∈ gts) (h2 : Recognized cfg r → r.formValue b!"grant_type" ∈ gts ∧ kind.name ∈ gts) :
    Aud (Tells cfg gts) (fun _ _ => True) [] (handler cfg lib r) := by
  unfold handler
  split
  · rename_i hm
    exact aud_log (aud_respond ⟨_, _, .wrongMethod, rfl, ⟨rfl, rfl, rfl⟩, rfl, h1 fun h => hm h.1, by simp [reasons], (show AtLeast .debug .debug by decide),
      fun _ h => (by cases h), .inr (.inr (.inl (by simp)))⟩)
  · rename_i hm
    dsimp only
    split
    · rename_i hgt
      refine aud_log (aud_fail (who := fun _ => False) ⟨_, rfl⟩ ⟨⟨rfl, rfl⟩, rfl, h1 fun h => h.2.1 hgt, by simp [reasons, OAuthError.new],
        (show AtLeast .debug .debug by decide), fun name h => ?_, .inr (.inl ⟨rfl, rfl⟩)⟩ fun _ h => h.elim)
      simp only [OAuthError.new, Reply.refused.injEq, true_and] at h
      have h' : b!"missing '" ++ b!"grant_type" ++ b!"' parameter" = b!"missing '" ++ name ++ b!"' parameter" := h
      rw [List.append_left_inj, List.append_right_inj] at h'
      subst h'
      exact ⟨rfl, by simp [pParam]⟩
    · rename_i hgt
      split
      · rename_i hno
        exact aud_log (aud_fail (who := fun _ => False) ⟨_, rfl⟩
          (because_refused rfl (h1 fun ⟨_, _, _, h⟩ => (by unfold Registered at h; rw [h] at hno; cases hno)) (by simp [reasons]) (by decide) (by simp) (.inr (.inr (.inl (by simp))))) fun _ h => h.elim)
      · rename_i hf hreg
        obtain rfl := hk hf hreg
        obtain ⟨hg1, hg2⟩ := h2 ⟨Decidable.not_not.1 hm, hgt, _, hreg⟩
        split
        · refine aud_bind (aud_bySecret hg1) fun c t hc _ => ?_
          split
          · exact aud_execute hg1 hg2 (found_client hc)
          · exact trivial
        · split
          · refine aud_bind (aud_byAssertion hg1) fun c t hc _ => ?_
            split
            · exact aud_execute hg1 hg2 (found_client hc)
            · exact trivial
          · exact aud_log (aud_respond ⟨_, _, .challenged, rfl, says_challenge, rfl, hg1, by simp [reasons], (show AtLeast .debug .debug by decide),
              fun _ h => (by cases h), .inr (.inr (.inl (by simp)))⟩)

end

end Goidc
