import Verif.Spec.Protector
import Verif.Lemmas.Decimal
import Verif.Lemmas.Int64
import Verif.Lemmas.Str
import Verif.Props.PureStrings
import Verif.Sample.World

/-! # C25–C29, C56 and the access-token half of C17: the resource protector -/

namespace Goidc.Props

open Spec ResourceProtector

variable {cfg : ProtectorCfg} {lib : Lib} {r r' : Req} {t : List Event}

/-! ## The token the protector looks up -/

theorem find_iff {tok : GoStr} :
    (findTokenFromRequest cfg r = tok ∧ tok ≠ []) ↔ BearerToken cfg.acceptance r tok := by
  unfold BearerToken findTokenFromRequest Words
  dsimp only
  simp only [fields_iff]
  by_cases hh : r.header b!"Authorization" = []
  · simp only [hh, if_true, split]
    constructor
    · rintro ⟨rfl, h⟩; exact absurd rfl h
    · rintro ⟨a, b, c, h, _⟩; cases h
  · rw [if_neg hh]
    split
    · rename_i p0 p1 rest hs
      constructor
      · rintro ⟨h, hne⟩
        refine ⟨p0, p1, rest, hs, ?_⟩
        split at h
        · exact absurd h.symm hne
        · rename_i hb
          refine ⟨Decidable.byContradiction hb, hne, ?_⟩
          split at h
          · exact .inl h.symm
          · rename_i hp
            have hp : p1 = [] := Decidable.byContradiction hp
            split at h
            · exact absurd h.symm hne
            · rename_i hm; exact .inr ⟨hp, .inl ⟨hm, h.symm⟩⟩
            · rename_i hm; exact .inr ⟨hp, .inr ⟨hm, h.symm⟩⟩
            · exact absurd h.symm hne
      · rintro ⟨a, b, c, h, hb, hne, hor⟩
        rw [hs] at h
        injection h with h1 h2
        injection h2 with h2 h3
        subst h1; subst h2; subst h3
        refine ⟨?_, hne⟩
        rw [if_neg (fun h => h hb)]
        rcases hor with rfl | ⟨rfl, ⟨hm, rfl⟩ | ⟨hm, rfl⟩⟩
        · rw [if_pos hne]
        · simp [hm]
        · simp [hm]
    · rename_i hs
      constructor
      · rintro ⟨rfl, h⟩; exact absurd rfl h
      · rintro ⟨a, b, c, h, _⟩; exact absurd h (hs a b c)

/-! ## Every run of `Validate` -/

/-- The answers `Validate` can give without admitting the request. -/
def Refusal (cfg : ProtectorCfg) (lib : Lib) (resp : HttpResp) : Prop :=
  resp = ⟨500, [], []⟩ ∨
  ∃ e : OAuthError, (e.type = .invalidRequest ∨ e.type = .invalidToken) ∧
    resp = ⟨e.statusCode, [(b!"WWW-Authenticate", (withURI cfg e).header lib.isPrint cfg.realm)], []⟩

theorem refusal_status {resp : HttpResp} (h : Refusal cfg lib resp) :
    resp.status = 400 ∨ resp.status = 401 ∨ resp.status = 500 := by
  rcases h with rfl | ⟨e, he | he, rfl⟩
  · simp
  · simp [OAuthError.statusCode, he, OAuthErrorType.statusCode]
  · simp [OAuthError.statusCode, he, OAuthErrorType.statusCode]

theorem wroteOne_cons {e : Event} {t : List Event} {resp} (h : WroteOne t resp)
    (he : ∀ x, e.q ≠ .write x) : WroteOne (e :: t) resp := by
  obtain ⟨pre, rfl, hp⟩ := h
  refine ⟨e :: pre, rfl, fun e' h' => ?_⟩
  rcases List.mem_cons.1 h' with rfl | h'
  · exact he
  · exact hp e' h'

theorem wroteOne_single {resp : HttpResp} : WroteOne [⟨.write resp, ()⟩] resp := ⟨[], rfl, by simp⟩

/-- Log a line, write `resp`, return `a`. -/
theorem runs_log_respond {α : Type} {l : LogLine} {resp : HttpResp} {a : α} {t o}
    (h : Runs ((ask (.log l)).bind fun _ => (ask (.write resp)).bind fun _ => .ret a) t o) :
    WroteOne t resp ∧ o = .ok a := by
  replace h := runs_bind_ask.1 h
  obtain ⟨_, t1, rfl, h⟩ := h
  replace h := runs_bind_ask.1 h
  obtain ⟨_, t2, rfl, h⟩ := h
  obtain ⟨rfl, rfl⟩ := h
  exact ⟨wroteOne_cons wroteOne_single (by simp), rfl⟩

/-- The run refuses: nothing but lookups and logging, then one response. -/
def Refused (cfg : ProtectorCfg) (lib : Lib) (r : Req) (t : List Event) (o : Outcome (Bool × Req)) : Prop :=
  o = .ok (false, r) ∧ ∃ resp, Refusal cfg lib resp ∧ WroteOne t resp

theorem refused_cons {e : Event} {o} (h : Refused cfg lib r t o) (he : ∀ x, e.q ≠ .write x) :
    Refused cfg lib r (e :: t) o := by
  obtain ⟨ho, resp, hr, hw⟩ := h
  exact ⟨ho, resp, hr, wroteOne_cons hw he⟩

theorem refused_log {l : LogLine} {resp : HttpResp} (hr : Refusal cfg lib resp) {o}
    (h : Runs ((ask (.log l)).bind fun _ => (ask (.write resp)).bind fun _ => .ret (false, r)) t o) :
    Refused cfg lib r t o := by
  obtain ⟨hw, ho⟩ := runs_log_respond h
  exact ⟨ho, resp, hr, hw⟩

/-- The request with the identity headers of `info`. -/
def withIdentity (r : Req) (info : AuthInfo) : Req :=
  ((r.setHeader b!"X-OAUTH-USER-ID" (itoa info.userId)).setHeader
      b!"X-OAUTH-CLIENT-ID" info.clientId).setHeader b!"X-OAUTH-SCOPE" info.scope

/-- Anatomy of a run of `Validate`: it refuses with one response; or a live token was found and its
authorization admitted the request; or the application answered `(nil, nil)` for the authorization of
a live token, and the run panicked. -/
theorem validate_runs {o : Outcome (Bool × Req)} (h : Runs (validate cfg lib r) t o) :
    Refused cfg lib r t o ∨
    ∃ tok atk now ans, BearerToken cfg.acceptance r tok ∧
      t = [⟨.findOAuthTokenByAccessToken tok, (some atk, none)⟩, ⟨.now, now⟩,
        ⟨.findActiveAuthInfoById atk.authId, (ans, none)⟩] ∧
      ¬ (atk.refreshedAt + atk.accessTokenExpiresIn < now) ∧
      ((∃ info, ans = some info ∧ o = .ok (true, withIdentity r info)) ∨ (ans = none ∧ o = .panic)) := by
  unfold validate at h
  dsimp only at h
  split at h
  · exact .inl (refused_log (.inr ⟨_, .inl rfl, rfl⟩) h)
  · rename_i hne
    replace h := runs_bind_ask.1 h
    obtain ⟨res, t1, rfl, h⟩ := h
    split at h
    · exact .inl (refused_cons (refused_log (.inr ⟨_, .inr rfl, rfl⟩) h) (by simp))
    · exact .inl (refused_cons (refused_log (.inl rfl) h) (by simp))
    · exact .inl (refused_cons (refused_log (.inl rfl) h) (by simp))
    · exact .inl (refused_cons (refused_log (.inl rfl) h) (by simp))
    · rename_i atk
      unfold validateToken at h
      replace h := runs_bind_ask.1 h
      obtain ⟨now, t2, rfl, h⟩ := h
      split at h
      · replace h := runs_bind_ask.1 h
        obtain ⟨now2, t3, rfl, h⟩ := h
        exact .inl (refused_cons (refused_cons (refused_cons
          (refused_log (.inr ⟨_, .inr rfl, rfl⟩) h) (by simp)) (by simp)) (by simp))
      · rename_i hlive
        unfold validateInfo at h
        replace h := runs_bind_ask.1 h
        obtain ⟨ians, t3, rfl, h⟩ := h
        split at h
        · exact .inl (refused_cons (refused_cons (refused_cons
            (refused_log (.inr ⟨_, .inr rfl, rfl⟩) h) (by simp)) (by simp)) (by simp))
        · exact .inl (refused_cons (refused_cons (refused_cons
            (refused_log (.inl rfl) h) (by simp)) (by simp)) (by simp))
        · exact .inl (refused_cons (refused_cons (refused_cons
            (refused_log (.inl rfl) h) (by simp)) (by simp)) (by simp))
        · rename_i info
          refine .inr ⟨_, atk, now, info, find_iff.1 ⟨rfl, hne⟩, ?_, hlive, ?_⟩
          · cases info with
            | none => obtain ⟨rfl, _⟩ := h; rfl
            | some i => obtain ⟨rfl, _⟩ := h; rfl
          · cases info with
            | none => exact .inr ⟨rfl, h.2⟩
            | some i => exact .inl ⟨i, rfl, h.2⟩

theorem validate_true (h : Runs (validate cfg lib r) t (.ok (true, r'))) :
    ∃ tok atk now info, BearerToken cfg.acceptance r tok ∧
      t = [⟨.findOAuthTokenByAccessToken tok, (some atk, none)⟩, ⟨.now, now⟩,
        ⟨.findActiveAuthInfoById atk.authId, (some info, none)⟩] ∧
      ¬ (atk.refreshedAt + atk.accessTokenExpiresIn < now) ∧ r' = withIdentity r info := by
  rcases validate_runs h with ⟨ho, _⟩ | ⟨tok, atk, now, ans, hb, ht, hl, ⟨info, rfl, ho⟩ | ⟨_, ho⟩⟩
  · cases ho
  · injection ho with ho; injection ho with _ ho
    exact ⟨tok, atk, now, info, hb, ht, hl, ho⟩
  · cases ho

/-- Nothing but these calls is needed to admit a request. -/
theorem validate_admits {tok atk now info} (hb : BearerToken cfg.acceptance r tok)
    (hl : ¬ (atk.refreshedAt + atk.accessTokenExpiresIn < now)) :
    Runs (validate cfg lib r) [⟨.findOAuthTokenByAccessToken tok, (some atk, none)⟩, ⟨.now, now⟩,
        ⟨.findActiveAuthInfoById atk.authId, (some info, none)⟩] (.ok (true, withIdentity r info)) := by
  obtain ⟨hf, hne⟩ := find_iff.2 hb
  unfold validate
  dsimp only
  rw [hf, if_neg hne]
  refine ⟨_, _, rfl, ?_⟩
  show Runs (validateToken cfg lib r tok atk) _ _
  unfold validateToken
  refine ⟨_, _, rfl, ?_⟩
  show Runs (if atk.refreshedAt + atk.accessTokenExpiresIn < now then _ else _) _ _
  rw [if_neg hl]
  refine ⟨_, _, rfl, ?_⟩
  exact ⟨rfl, rfl⟩

/-! ## A concrete admitted request -/

/-- A request with a bearer token and forged identity headers. -/
def sampleBearer : Req where
  method := b!"GET"
  path := b!"/me"
  headers := [(b!"Authorization", b!"bEaReR at"), (b!"x-oauth-user-id", b!"1"), (b!"Accept", b!"*/*"),
    (b!"X-OAUTH-SCOPE", b!"admin"), (b!"X-OAuth-Scope", b!"root")]
  body := []
  query := []

def sampleProtector : ProtectorCfg := ResourceProtector.new b!"realm"

theorem sample_bearer : BearerToken sampleProtector.acceptance sampleBearer b!"at" :=
  ⟨b!"bEaReR", b!"at", [], by decide +kernel, by decide +kernel, by decide +kernel, .inl rfl⟩

theorem sample_admitted : Runs (validate sampleProtector Sample.lib sampleBearer)
    [⟨.findOAuthTokenByAccessToken b!"at", (some Sample.token, none)⟩, ⟨.now, 1000⟩,
        ⟨.findActiveAuthInfoById Sample.token.authId, (some Sample.info, none)⟩]
    (.ok (true, withIdentity sampleBearer Sample.info)) :=
  validate_admits sample_bearer (by decide +kernel)

/-! ## C25 -/

/-- C25: a request is admitted exactly by these three calls: the application returned a token for the
presented bearer token, the token was not expired at the protector's clock, and the application
returned the active authorization of that token. -/
theorem C25_live (h : Runs (validate cfg lib r) t (.ok (true, r'))) :
    ∃ tok atk now info, BearerToken cfg.acceptance r tok ∧
      t = [⟨.findOAuthTokenByAccessToken tok, (some atk, none)⟩, ⟨.now, now⟩,
        ⟨.findActiveAuthInfoById atk.authId, (some info, none)⟩] ∧
      ¬ (atk.refreshedAt + atk.accessTokenExpiresIn < now) := by
  obtain ⟨tok, atk, now, info, h1, h2, h3, _⟩ := validate_true h
  exact ⟨tok, atk, now, info, h1, h2, h3⟩

/-- C25, converse: such answers do admit the request. -/
theorem C25_complete {tok atk now info} (hb : BearerToken cfg.acceptance r tok)
    (hl : ¬ (atk.refreshedAt + atk.accessTokenExpiresIn < now)) :
    ∃ r', Runs (validate cfg lib r) [⟨.findOAuthTokenByAccessToken tok, (some atk, none)⟩, ⟨.now, now⟩,
        ⟨.findActiveAuthInfoById atk.authId, (some info, none)⟩] (.ok (true, r')) :=
  ⟨_, validate_admits hb hl⟩

example : ∃ t r', Runs (validate sampleProtector Sample.lib sampleBearer) t (.ok (true, r')) :=
  ⟨_, _, sample_admitted⟩

/-! ## C17: the access-token half -/

/-- C17: admission implies the token is within its lifetime as mathematical integers, even if the
64-bit sum overflows. -/
theorem C17_access_sound (h : Runs (validate cfg lib r) t (.ok (true, r'))) {k atk now}
    (ha : ⟨.findOAuthTokenByAccessToken k, (some atk, none)⟩ ∈ t) (hn : ⟨.now, now⟩ ∈ t)
    (h1 : 0 ≤ atk.refreshedAt.toInt) (h2 : 0 ≤ atk.accessTokenExpiresIn.toInt) :
    now.toInt ≤ atk.refreshedAt.toInt + atk.accessTokenExpiresIn.toInt := by
  obtain ⟨tok, atk', now', info, _, rfl, hl⟩ := C25_live h
  simp only [List.mem_cons, List.not_mem_nil, or_false] at ha hn
  rcases ha with ha | ha | ha <;> cases ha
  rcases hn with hn | hn | hn <;> cases hn
  exact not_expired_sound h1 h2 hl

/-- C17: without overflow, a token within its lifetime is admitted. -/
theorem C17_access_complete {tok atk now info} (hb : BearerToken cfg.acceptance r tok)
    (h1 : 0 ≤ atk.refreshedAt.toInt) (h2 : 0 ≤ atk.accessTokenExpiresIn.toInt)
    (hov : atk.refreshedAt.toInt + atk.accessTokenExpiresIn.toInt < 2 ^ 63)
    (hn : now.toInt ≤ atk.refreshedAt.toInt + atk.accessTokenExpiresIn.toInt) :
    ∃ r', Runs (validate cfg lib r) [⟨.findOAuthTokenByAccessToken tok, (some atk, none)⟩, ⟨.now, now⟩,
        ⟨.findActiveAuthInfoById atk.authId, (some info, none)⟩] (.ok (true, r')) :=
  C25_complete hb (not_expired_complete h1 h2 hov hn)

/-! ## C26 -/

theorem setHeader_values_self (r : Req) (k v : GoStr) : headerValues (r.setHeader k v) k = [v] := by
  simp [headerValues, Req.setHeader, List.filter_cons, List.filter_filter]

theorem setHeader_values_other (r : Req) {k n : GoStr} (v : GoStr) (h : toLower n ≠ toLower k) :
    headerValues (r.setHeader k v) n = headerValues r n := by
  unfold headerValues Req.setHeader
  have h2 : (toLower k == toLower n) = false := by simpa using fun e => h (Eq.symm e)
  simp only [List.filter_cons, h2, List.filter_filter, Bool.false_eq_true, if_false]
  congr 1
  apply List.filter_congr
  intro x _
  by_cases hx : toLower x.1 = toLower n
  · simp [hx, h]
  · simp [hx]

/-- C26: whatever identity headers the caller sent, under any capitalisation, an admitted request has
exactly one value for each, taken from the authorization of the presented token. -/
theorem C26_identity (h : Runs (validate cfg lib r) t (.ok (true, r'))) :
    ∃ tok atk now info,
      t = [⟨.findOAuthTokenByAccessToken tok, (some atk, none)⟩, ⟨.now, now⟩,
        ⟨.findActiveAuthInfoById atk.authId, (some info, none)⟩] ∧
      headerValues r' b!"X-OAUTH-USER-ID" = [itoa info.userId] ∧
      headerValues r' b!"X-OAUTH-CLIENT-ID" = [info.clientId] ∧
      headerValues r' b!"X-OAUTH-SCOPE" = [info.scope] := by
  obtain ⟨tok, atk, now, info, _, ht, _, rfl⟩ := validate_true h
  refine ⟨tok, atk, now, info, ht, ?_, ?_, ?_⟩ <;> unfold withIdentity
  · rw [setHeader_values_other _ _ (by decide +kernel), setHeader_values_other _ _ (by decide +kernel),
      setHeader_values_self]
  · rw [setHeader_values_other _ _ (by decide +kernel), setHeader_values_self]
  · rw [setHeader_values_self]

/-- C26: nothing else about the request changes. -/
theorem C26_others_unchanged (h : Runs (validate cfg lib r) t (.ok (true, r'))) :
    otherHeaders r' = otherHeaders r ∧ r'.method = r.method ∧ r'.path = r.path ∧
      r'.body = r.body ∧ r'.query = r.query := by
  obtain ⟨tok, atk, now, info, _, ht, _, rfl⟩ := validate_true h
  refine ⟨?_, rfl, rfl, rfl, rfl⟩
  unfold otherHeaders withIdentity Req.setHeader
  simp only [List.filter_cons]
  have e1 : (! identityHeaders.any fun n => toLower b!"X-OAUTH-USER-ID" == toLower n) = false := by
    decide +kernel
  have e2 : (! identityHeaders.any fun n => toLower b!"X-OAUTH-CLIENT-ID" == toLower n) = false := by
    decide +kernel
  have e3 : (! identityHeaders.any fun n => toLower b!"X-OAUTH-SCOPE" == toLower n) = false := by
    decide +kernel
  simp only [e1, e2, e3, Bool.false_eq_true, if_false, List.filter_filter]
  split <;> simp only [List.filter_cons, e1, e2, e3, Bool.false_eq_true, if_false, List.filter_filter]
  all_goals
    first
    | (split <;> simp only [List.filter_cons, e1, e2, e3, Bool.false_eq_true, if_false, List.filter_filter])
    | skip
  all_goals
    apply List.filter_congr
    intro x _
    simp only [identityHeaders, List.any_cons, List.any_nil, Bool.or_false]
    generalize toLower x.1 = y
    generalize toLower b!"X-OAUTH-USER-ID" = a
    generalize toLower b!"X-OAUTH-CLIENT-ID" = b
    generalize toLower b!"X-OAUTH-SCOPE" = c
    simp only [bne]
    cases y == a <;> cases y == b <;> cases y == c <;> rfl

/-- The forged headers of the sample request are gone, the others kept. -/
example : headerValues (withIdentity sampleBearer Sample.info) b!"X-OAUTH-USER-ID" = [b!"5"] ∧
    headerValues (withIdentity sampleBearer Sample.info) b!"X-OAUTH-SCOPE" = [b!"openid offline_access"] ∧
    otherHeaders sampleBearer = [(b!"Authorization", b!"bEaReR at"), (b!"Accept", b!"*/*")] := by
  decide +kernel

/-! ## C56 -/

/-- C56: the user id header of an admitted request parses back to the authorization's user id. -/
theorem C56_user_id (h : Runs (validate cfg lib r) t (.ok (true, r'))) {k info}
    (hi : ⟨.findActiveAuthInfoById k, (some info, none)⟩ ∈ t) :
    atoi (r'.header b!"X-OAUTH-USER-ID") = some info.userId ∧
    Spec.CanonicalDecimal (r'.header b!"X-OAUTH-USER-ID") info.userId.toInt := by
  obtain ⟨tok, atk, now, info', _, rfl, _, rfl⟩ := validate_true h
  simp only [List.mem_cons, List.not_mem_nil, or_false] at hi
  rcases hi with hi | hi | hi <;> cases hi
  have : (withIdentity r info).header b!"X-OAUTH-USER-ID" = itoa info.userId := by
    have hv : headerValues (withIdentity r info) b!"X-OAUTH-USER-ID" = [itoa info.userId] := by
      unfold withIdentity
      rw [setHeader_values_other _ _ (by decide +kernel), setHeader_values_other _ _ (by decide +kernel),
        setHeader_values_self]
    exact header_of_values hv
  rw [this]
  exact ⟨atoi_itoa _, itoa_canonical _⟩
where
  header_of_values {r : Req} {n v : GoStr} {vs : List GoStr} (h : headerValues r n = v :: vs) :
      r.header n = v := by
    unfold headerValues at h
    unfold Req.header
    rw [← List.head?_filter]
    cases hf : r.headers.filter (fun kv => toLower kv.1 == toLower n) with
    | nil => rw [hf] at h; cases h
    | cons x xs => rw [hf] at h; simp only [List.map_cons, List.cons.injEq] at h; exact h.1

example : atoi b!"-9223372036854775808" = some Int64.minValue := by decide +kernel

/-! ## C27 -/

/-- C27: a run of `Validate` that returns false has written exactly one response, with status 400,
401 or 500, and leaves the request as it was. -/
theorem C27_refuses (h : Runs (validate cfg lib r) t (.ok (false, r'))) :
    r' = r ∧ ∃ resp, WroteOne t resp ∧
      (resp.status = 400 ∨ resp.status = 401 ∨ resp.status = 500) := by
  rcases validate_runs h with ⟨ho, resp, hr, hw⟩ | ⟨tok, atk, now, ans, hb, ht, hl, ⟨info, rfl, ho⟩ | ⟨_, ho⟩⟩
  · injection ho with ho; injection ho with _ ho
    exact ⟨ho, resp, hw, refusal_status hr⟩
  · injection ho with ho; cases ho
  · cases ho

/-- C27: a run of `Validate` that returns true has written nothing. -/
theorem C27_admits_silent (h : Runs (validate cfg lib r) t (.ok (true, r'))) : WroteNothing t := by
  obtain ⟨tok, atk, now, info, _, rfl, _⟩ := C25_live h
  intro e he x
  simp only [List.mem_cons, List.not_mem_nil, or_false] at he
  rcases he with rfl | rfl | rfl <;> simp

/-- C27 (partial): `Validate` panics exactly when the application answers `(nil, nil)` to
`FindActiveAuthInfoById` for a live token; nothing has been written then.  Missing from the full
property: the code tests the wrong variable for nil (resource_protector.go:224). -/
theorem C27_no_panic_partial : Runs (validate cfg lib r) t .panic ↔
    ∃ tok atk now, BearerToken cfg.acceptance r tok ∧
      t = [⟨.findOAuthTokenByAccessToken tok, (some atk, none)⟩, ⟨.now, now⟩,
        ⟨.findActiveAuthInfoById atk.authId, (none, none)⟩] ∧
      ¬ (atk.refreshedAt + atk.accessTokenExpiresIn < now) := by
  constructor
  · intro h
    rcases validate_runs h with ⟨ho, _⟩ | ⟨tok, atk, now, ans, hb, ht, hl, ⟨info, rfl, ho⟩ | ⟨rfl, _⟩⟩
    · cases ho
    · cases ho
    · exact ⟨tok, atk, now, hb, ht, hl⟩
  · rintro ⟨tok, atk, now, hb, rfl, hl⟩
    obtain ⟨hf, hne⟩ := find_iff.2 hb
    unfold validate
    dsimp only
    rw [hf, if_neg hne]
    refine ⟨_, _, rfl, ?_⟩
    show Runs (validateToken cfg lib r tok atk) _ _
    unfold validateToken
    refine ⟨_, _, rfl, ?_⟩
    show Runs (if atk.refreshedAt + atk.accessTokenExpiresIn < now then _ else _) _ _
    rw [if_neg hl]
    exact ⟨_, _, rfl, rfl, rfl⟩

/-- The full C27 is false: there is a run that panics. -/
theorem C27_false : ¬ ∀ (cfg : ProtectorCfg) (lib : Lib) (r : Req) (t : List Event),
    ¬ Runs (validate cfg lib r) t .panic := fun h =>
  h sampleProtector Sample.lib sampleBearer _
    (C27_no_panic_partial.2 ⟨b!"at", Sample.token, 1000, sample_bearer, rfl, by decide +kernel⟩)

/-- A request without credentials, one with an unknown token and an expired one are refused. -/
example : ({} : Sample.World).status (validate sampleProtector Sample.lib (Sample.post [])) = some 400 ∧
    ({ foundToken := (none, some .failed) } : Sample.World).status
      (validate sampleProtector Sample.lib sampleBearer) = some 401 ∧
    ({ now := 950 + 3601 } : Sample.World).status
      (validate sampleProtector Sample.lib sampleBearer) = some 401 ∧
    ({ foundToken := (none, none) } : Sample.World).status
      (validate sampleProtector Sample.lib sampleBearer) = some 500 := by
  decide +kernel

/-! ## C28 -/

/-- The scopes required for a path: the entry of the map, nothing when the path is not a key. -/
def RequiredScopes (m : List (GoStr × List GoStr)) (path : GoStr) (scopes : List GoStr) : Prop :=
  (path, scopes) ∈ m ∨ (scopes = [] ∧ ∀ kv ∈ m, kv.1 ≠ path)

/-- A Go map has each key once. -/
def DistinctKeys (m : List (GoStr × List GoStr)) : Prop := (m.map (·.1)).Nodup

theorem lookupScopes_mem {m : List (GoStr × List GoStr)} (hd : DistinctKeys m) {path : GoStr}
    {scopes : List GoStr} : (path, scopes) ∈ m ↔ lookupScopes m path = some scopes := by
  induction m with
  | nil => simp [lookupScopes]
  | cons x m ih =>
    obtain ⟨k, v⟩ := x
    simp only [DistinctKeys, List.map_cons, List.nodup_cons] at hd
    have ih := ih hd.2
    by_cases hk : k = path
    · subst hk
      have : lookupScopes ((k, v) :: m) k = some v := by simp [lookupScopes]
      rw [this]
      simp only [List.mem_cons, Prod.mk.injEq, true_and, Option.some.injEq]
      constructor
      · rintro (h | h)
        · exact h.symm
        · exact absurd (List.mem_map_of_mem h) hd.1
      · intro h; exact .inl h.symm
    · have : lookupScopes ((k, v) :: m) path = lookupScopes m path := by
        simp [lookupScopes, hk]
      rw [this, ← ih]
      simp only [List.mem_cons, Prod.mk.injEq]
      exact ⟨fun h => h.resolve_left (fun e => hk e.1.symm), .inr⟩

theorem lookupScopes_none {m : List (GoStr × List GoStr)} {path : GoStr} :
    (∀ kv ∈ m, kv.1 ≠ path) ↔ lookupScopes m path = none := by
  unfold lookupScopes
  cases hf : m.find? (fun kv => kv.1 == path) with
  | none => simpa using hf
  | some kv =>
    simp only [reduceCtorEq, iff_false]
    intro h
    exact h kv (List.mem_of_find?_eq_some hf) (by simpa using List.find?_some hf)

theorem requiredScopes_iff {m : List (GoStr × List GoStr)} (hd : DistinctKeys m) {path : GoStr}
    {scopes : List GoStr} :
    RequiredScopes m path scopes ↔ (lookupScopes m path).getD [] = scopes := by
  unfold RequiredScopes
  rw [lookupScopes_mem hd, lookupScopes_none]
  cases h : lookupScopes m path with
  | none => simp [eq_comm]
  | some s => simp

/-- The 403 answer naming a missing scope. -/
def insufficientScope (cfg : ProtectorCfg) (lib : Lib) (missing : GoStr) : HttpResp :=
  ⟨403, [(b!"WWW-Authenticate", (withURI cfg (OAuthError.new .insufficientScope
    (b!"this endpoint requires " ++ quote lib.isPrint missing ++
      b!" scope, but the access_token was't issued for."))).header lib.isPrint cfg.realm)], []⟩

theorem validateWithScopes_runs {m : List (GoStr × List GoStr)} {o : Outcome (Bool × Req)} :
    Runs (validateWithScopes cfg lib r m) t o ↔
      (∃ r', Runs (validate cfg lib r) t (.ok (false, r')) ∧ o = .ok (false, r')) ∨
      (Runs (validate cfg lib r) t .panic ∧ o = .panic) ∨
      ∃ t1 t2 r', t = t1 ++ t2 ∧ Runs (validate cfg lib r) t1 (.ok (true, r')) ∧
        ((Scope.includeAll (r'.header b!"X-OAUTH-SCOPE") ((lookupScopes m r'.path).getD [])).1 = true ∧
            t2 = [] ∧ o = .ok (true, r') ∨
         (Scope.includeAll (r'.header b!"X-OAUTH-SCOPE") ((lookupScopes m r'.path).getD [])).1 = false ∧
            t2 = [⟨.write (insufficientScope cfg lib
              (Scope.includeAll (r'.header b!"X-OAUTH-SCOPE") ((lookupScopes m r'.path).getD [])).2), ()⟩] ∧
            o = .ok (false, r')) := by
  have hbody : ∀ (r' : Req) t2, Runs (match lookupScopes m r'.path with
      | some scopes =>
        let res := Scope.includeAll (r'.header b!"X-OAUTH-SCOPE") scopes
        if res.1 then pure (true, r')
        else do
          unauthorize cfg lib (OAuthError.new .insufficientScope
            (b!"this endpoint requires " ++ quote lib.isPrint res.2 ++
              b!" scope, but the access_token was't issued for."))
          pure (false, r')
      | none => pure (true, r') : Prog (Bool × Req)) t2 o ↔
        ((Scope.includeAll (r'.header b!"X-OAUTH-SCOPE") ((lookupScopes m r'.path).getD [])).1 = true ∧
            t2 = [] ∧ o = .ok (true, r') ∨
         (Scope.includeAll (r'.header b!"X-OAUTH-SCOPE") ((lookupScopes m r'.path).getD [])).1 = false ∧
            t2 = [⟨.write (insufficientScope cfg lib
              (Scope.includeAll (r'.header b!"X-OAUTH-SCOPE") ((lookupScopes m r'.path).getD [])).2), ()⟩] ∧
            o = .ok (false, r')) := by
    intro r' t2
    cases hl : lookupScopes m r'.path with
    | none => simp [Scope.includeAll, Scope.includeAllLoop]
    | some scopes =>
      dsimp only [Option.getD_some]
      cases hi : (Scope.includeAll (r'.header b!"X-OAUTH-SCOPE") scopes).1 with
      | true => simp
      | false =>
        simp only [Bool.false_eq_true, if_false, false_and, false_or, true_and]
        unfold unauthorize respond
        constructor
        · intro h
          obtain ⟨_, _, h1, rfl, rfl⟩ := runs_bind_ask.1 h
          exact ⟨h1, rfl⟩
        · rintro ⟨rfl, rfl⟩; exact runs_bind_ask.2 ⟨(), _, rfl, rfl, rfl⟩
  unfold validateWithScopes
  rw [Prog.bind_eq, runs_bind]
  constructor
  · rintro (⟨⟨ok, r'⟩, t1, t2, rfl, h1, h2⟩ | ⟨h, rfl⟩)
    · dsimp only at h2
      cases ok with
      | false =>
        rw [if_pos rfl] at h2
        obtain ⟨rfl, rfl⟩ := h2
        exact .inl ⟨r', by simpa using h1, rfl⟩
      | true =>
        rw [if_neg (by simp)] at h2
        exact .inr (.inr ⟨t1, t2, r', rfl, h1, (hbody r' t2).1 h2⟩)
    · exact .inr (.inl ⟨h, rfl⟩)
  · rintro (⟨r', h, rfl⟩ | ⟨h, rfl⟩ | ⟨t1, t2, r', rfl, h1, h2⟩)
    · exact .inl ⟨(false, r'), t, [], by simp, h, rfl, rfl⟩
    · exact .inr ⟨h, rfl⟩
    · refine .inl ⟨(true, r'), t1, t2, rfl, h1, ?_⟩
      dsimp only
      rw [if_neg (by simp)]
      exact (hbody r' t2).2 h2

theorem header_scope {info : AuthInfo} : (withIdentity r info).header b!"X-OAUTH-SCOPE" = info.scope :=
  C56_user_id.header_of_values (vs := []) (by unfold withIdentity; rw [setHeader_values_self])

/-- C28: `ValidateWithScopes` returns true exactly when `Validate` does and every scope required for
the request path is one of the space-separated scopes of the token's authorization. -/
theorem C28_admits_iff {m : List (GoStr × List GoStr)} (hd : DistinctKeys m) {required : List GoStr}
    (hreq : RequiredScopes m r.path required) :
    Runs (validateWithScopes cfg lib r m) t (.ok (true, r')) ↔
      Runs (validate cfg lib r) t (.ok (true, r')) ∧
      ∀ k info ws, ⟨.findActiveAuthInfoById k, (some info, none)⟩ ∈ t → Words info.scope ws →
        ∀ s ∈ required, s ∈ ws := by
  have hreq' := (requiredScopes_iff hd).1 hreq
  have key : ∀ {t1 : List Event} {r'}, Runs (validate cfg lib r) t1 (.ok (true, r')) →
      ((Scope.includeAll (r'.header b!"X-OAUTH-SCOPE") ((lookupScopes m r'.path).getD [])).1 = true ↔
        ∀ k info ws, ⟨.findActiveAuthInfoById k, (some info, none)⟩ ∈ t1 → Words info.scope ws →
          ∀ s ∈ required, s ∈ ws) := by
    intro t1 r' h1
    have hp := (C26_others_unchanged h1).2.2.1
    obtain ⟨tok, atk, now, info, _, rfl, _, rfl⟩ := validate_true h1
    rw [hp, hreq', header_scope]
    have hw : Words info.scope (split 32 info.scope) := fields_iff.2 rfl
    constructor
    · intro hi k info' ws hm hws s hs
      simp only [List.mem_cons, List.not_mem_nil, or_false] at hm
      rcases hm with hm | hm | hm <;> cases hm
      rcases C46_includeAll_cases ws required with hall | ⟨pre, x, post, rfl, hpre, hx⟩
      · exact hall s hs
      · rw [C46_includeAll_fails hws hpre hx] at hi; cases hi
    · intro hall
      rw [C46_includeAll_true hw (hall atk.authId info _ (by simp) hw)]
  rw [validateWithScopes_runs]
  constructor
  · rintro (⟨_, _, h⟩ | ⟨_, h⟩ | ⟨t1, t2, r1, rfl, h1, ⟨hi, rfl, ho⟩ | ⟨_, _, ho⟩⟩)
    · cases h
    · cases h
    · injection ho with ho; injection ho with _ ho; subst ho
      simp only [List.append_nil]
      exact ⟨h1, (key h1).1 hi⟩
    · cases ho
  · rintro ⟨h1, hall⟩
    exact .inr (.inr ⟨t, [], r', by simp, h1, .inl ⟨(key h1).2 hall, rfl, rfl⟩⟩)

/-- C28: when `Validate` admits the request but a scope is missing, the answer is one 403 response
that names the first missing scope. -/
theorem C28_insufficient {m : List (GoStr × List GoStr)} (hd : DistinctKeys m)
    {before after : List GoStr} {missing : GoStr}
    (hreq : RequiredScopes m r.path (before ++ missing :: after))
    (h1 : Runs (validate cfg lib r) t (.ok (true, r')))
    {k info ws} (hi : ⟨.findActiveAuthInfoById k, (some info, none)⟩ ∈ t) (hws : Words info.scope ws)
    (hb : ∀ s ∈ before, s ∈ ws) (hm : missing ∉ ws) :
    Runs (validateWithScopes cfg lib r m) (t ++ [⟨.write (insufficientScope cfg lib missing), ()⟩])
      (.ok (false, r')) ∧
    ∀ t2 b r2, Runs (validateWithScopes cfg lib r m) (t ++ t2) (.ok (b, r2)) →
      t2 = [⟨.write (insufficientScope cfg lib missing), ()⟩] := by
  have hreq' := (requiredScopes_iff hd).1 hreq
  have hp := (C26_others_unchanged h1).2.2.1
  have hinc : Scope.includeAll (r'.header b!"X-OAUTH-SCOPE") ((lookupScopes m r'.path).getD []) =
      (false, missing) := by
    obtain ⟨tok, atk, now, info', _, rfl, _, rfl⟩ := validate_true h1
    simp only [List.mem_cons, List.not_mem_nil, or_false] at hi
    rcases hi with hi | hi | hi <;> cases hi
    rw [hp, hreq', header_scope]
    exact C46_includeAll_fails hws hb hm
  have hrun : Runs (validateWithScopes cfg lib r m)
      (t ++ [⟨.write (insufficientScope cfg lib missing), ()⟩]) (.ok (false, r')) :=
    validateWithScopes_runs.2 (.inr (.inr ⟨t, _, r', rfl, h1, .inr ⟨by rw [hinc], by rw [hinc], rfl⟩⟩))
  refine ⟨hrun, fun t2 b r2 h2 => ?_⟩
  rcases validateWithScopes_runs.1 h2 with ⟨_, h, _⟩ | ⟨_, h⟩ | ⟨t1', t2', r1, he, h1', hc⟩
  · exact absurd h (fun h => by have := (runs_prefix h1 h); cases this)
  · cases h
  · obtain ⟨rfl, rfl⟩ : t1' = t ∧ t2' = t2 := by
      obtain ⟨tok, atk, now, info', _, rfl, _, rfl⟩ := validate_true h1
      obtain ⟨tok', atk', now', info'', _, rfl, _, rfl⟩ := validate_true h1'
      have := List.append_inj he (by simp)
      exact ⟨this.1.symm, this.2.symm⟩
    have := runs_det h1 h1'
    injection this with this; injection this with _ this; subst this
    rw [hinc] at hc
    rcases hc with ⟨h, _⟩ | ⟨_, h, _⟩
    · cases h
    · exact h
where
  runs_prefix {α : Type} {p : Prog α} {t t2 : List Event} {o o2} (h1 : Runs p t o) (h2 : Runs p (t ++ t2) o2) :
      o = o2 := by
    induction p generalizing t with
    | ret a => rw [h1.2, h2.2]
    | panic => rw [h1.2, h2.2]
    | call q k ih =>
      obtain ⟨x, t', rfl, h1⟩ := h1
      obtain ⟨y, t'', he, h2⟩ := h2
      simp only [List.cons_append, List.cons.injEq] at he
      obtain ⟨he, rfl⟩ := he
      injection he with _ he
      cases he
      exact ih x h1 h2

/-- C28: a request `Validate` refuses is refused with the same answer, and nothing else is written. -/
theorem C28_refused {m : List (GoStr × List GoStr)} :
    Runs (validate cfg lib r) t (.ok (false, r')) → Runs (validateWithScopes cfg lib r m) t (.ok (false, r')) :=
  fun h => validateWithScopes_runs.2 (.inl ⟨r', h, rfl⟩)

example : RequiredScopes [(b!"/me", [b!"openid", b!"email"]), (b!"/x", [])] sampleBearer.path
    ([b!"openid"] ++ b!"email" :: []) := .inl (by decide +kernel)
example : ({} : Sample.World).status (validateWithScopes sampleProtector Sample.lib sampleBearer
    [(b!"/me", [b!"openid", b!"email"])]) = some 403 := by decide +kernel
example : ({} : Sample.World).status (validateWithScopes sampleProtector Sample.lib sampleBearer
    [(b!"/me", [b!"openid", b!"offline_access"])]) = none := by decide +kernel

/-! ## C29 -/

/-- C29 (partial): exactly the tokens described by `BearerToken` are looked up.  Missing from the full
property: a token in the body or the query is only considered when the Authorization header is present
with an empty token. -/
theorem C29_policy_partial {tok : GoStr} :
    (∃ t ans, Steps (validate cfg lib r) t ∧ ⟨.findOAuthTokenByAccessToken tok, ans⟩ ∈ t) ↔
      BearerToken cfg.acceptance r tok := by
  constructor
  · rintro ⟨t, ans, hs, hm⟩
    have hP : AllQ (fun q => ∀ k, q = .findOAuthTokenByAccessToken k → BearerToken cfg.acceptance r k)
        (validate cfg lib r) := by
      have hlw : ∀ (l : LogLine) (resp : HttpResp) (x : Bool × Req),
          AllQ (fun q => ∀ k, q = .findOAuthTokenByAccessToken k → BearerToken cfg.acceptance r k)
            ((ask (.log l)).bind fun _ => (ask (.write resp)).bind fun _ => .ret x) := fun l resp x =>
        allQ_bind (allQ_ask (by simp)) fun _ => allQ_bind (allQ_ask (by simp)) fun _ => trivial
      unfold validate
      dsimp only
      split
      · exact hlw _ _ _
      · rename_i hne
        refine allQ_bind' (allQ_ask ?_) fun ans => ?_
        · intro k hk; cases hk; exact find_iff.1 ⟨rfl, hne⟩
        · split
          · exact hlw _ _ _
          · exact hlw _ _ _
          · exact hlw _ _ _
          · exact hlw _ _ _
          · unfold validateToken
            refine allQ_bind' (allQ_ask (by simp)) fun now => ?_
            split
            · exact allQ_bind' (allQ_ask (by simp)) fun _ => hlw _ _ _
            · unfold validateInfo
              refine allQ_bind' (allQ_ask (by simp)) fun ians => ?_
              split
              · exact hlw _ _ _
              · exact hlw _ _ _
              · exact hlw _ _ _
              · rename_i info; cases info <;> trivial
    exact allQ_steps hP hs _ hm tok rfl
  · intro hb
    obtain ⟨hf, hne⟩ := find_iff.2 hb
    refine ⟨[⟨.findOAuthTokenByAccessToken tok, (none, none)⟩], (none, none), ?_, by simp⟩
    unfold validate
    dsimp only
    rw [hf, if_neg hne]
    exact .inr ⟨_, _, rfl, steps_nil⟩

/-- C29: with the default policy only the Authorization header can supply the token: two requests with
the same Authorization header are looked up under the same tokens, whatever else they carry. -/
theorem C29_header_only (hm : cfg.acceptance = .fromHeader) {r2 : Req}
    (hh : r.header b!"Authorization" = r2.header b!"Authorization") {tok : GoStr} :
    (∃ t ans, Steps (validate cfg lib r) t ∧ ⟨.findOAuthTokenByAccessToken tok, ans⟩ ∈ t) ↔
    (∃ t ans, Steps (validate cfg lib r2) t ∧ ⟨.findOAuthTokenByAccessToken tok, ans⟩ ∈ t) := by
  rw [C29_policy_partial, C29_policy_partial]
  unfold BearerToken
  simp [hm, hh]

/-- A token in the URL query is never used unless the policy is `FromAll`. -/
theorem C29_query_only_from_all (hm : cfg.acceptance ≠ .fromAll) {q : Params} {tok : GoStr} :
    (∃ t ans, Steps (validate cfg lib r) t ∧ ⟨.findOAuthTokenByAccessToken tok, ans⟩ ∈ t) ↔
    (∃ t ans, Steps (validate cfg lib { r with query := q }) t ∧
      ⟨.findOAuthTokenByAccessToken tok, ans⟩ ∈ t) := by
  rw [C29_policy_partial, C29_policy_partial]
  unfold BearerToken
  simp only [hm, false_and, or_false]
  exact Iff.rfl

/-- The acceptance half of C29 is false: with FromHeaderAndPostBody, a token in the body of a request
without Authorization header is not looked up. -/
theorem C29_false : ¬ ∀ (cfg : ProtectorCfg) (lib : Lib) (r : Req) (tok : GoStr),
    cfg.acceptance = .fromHeaderAndPostBody → r.header b!"Authorization" = [] →
    r.postFormValue b!"access_token" = tok → tok ≠ [] →
    ∃ t ans, Steps (validate cfg lib r) t ∧ ⟨.findOAuthTokenByAccessToken tok, ans⟩ ∈ t := by
  intro h
  have := h ⟨b!"r", none, .fromHeaderAndPostBody⟩ Sample.lib
    ⟨b!"POST", b!"/me", [], [(b!"access_token", b!"at")], [], false⟩ b!"at" rfl (by decide +kernel)
    (by decide +kernel) (by decide +kernel)
  obtain ⟨a, b, c, hw, _⟩ := C29_policy_partial.1 this
  have := fields_iff.1 hw
  simp [Req.header, split] at this

/-- The body token is used when the header is "Bearer " with nothing after it. -/
example : BearerToken .fromHeaderAndPostBody
    ⟨b!"POST", b!"/me", [(b!"authorization", b!"Bearer ")], [(b!"access_token", b!"at")], [], false⟩ b!"at" :=
  ⟨b!"Bearer", [], [], by decide +kernel, by decide +kernel, by decide +kernel,
    .inr ⟨rfl, .inl ⟨rfl, by decide +kernel⟩⟩⟩

end Goidc.Props
