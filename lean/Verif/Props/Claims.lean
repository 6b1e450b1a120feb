import Verif.Spec.Claims
import Verif.Props.Ignored
import Verif.Props.AuthPrompt
import Verif.Props.Hint

/-! # C118, C119: claims that are not understood, the issuer of an assertion -/

namespace Goidc.Props

open Spec

variable {lib : Lib} {r : Req} {d : GoStr → Option JwtToken} {hd : ∀ s t, d s = some t → t.raw = s} {α σ : Type}

theorem same_claimStr {t t' : JwtToken} (h : TokenAgree t t') {n : GoStr} (hn : n ∈ understoodClaims) :
    t'.claimStr n = t.claimStr n := by
  unfold JwtToken.claimStr
  rw [h.claims n hn]

theorem parse_said {s : GoStr} {s0 : σ} {kf : JwtToken → Prog (Jwt.KeyRes × σ)}
    {k : Option JwtToken × Option Jwt.VErr × σ → Prog α} (h : SameSaid (lib.jwtDecode s) (d s))
    (hkf : ∀ t t', TokenAgree t t' → kf t' = kf t)
    (hk : ∀ t t', TokenAgree t t' → ∀ e x, k (some t', e, x) = k (some t, e, x)) :
    (Jwt.parse (saying lib d hd) s s0 kf >>= k) = (Jwt.parse lib s s0 kf >>= k) := by
  unfold Jwt.parse
  rw [show (saying lib d hd).jwtDecode s = d s from rfl]
  cases h1 : lib.jwtDecode s with
  | none =>
    rw [h1] at h
    cases h2 : d s with
    | none => rfl
    | some t' => rw [h2] at h; exact h.elim
  | some t =>
    rw [h1] at h
    cases h2 : d s with
    | none => rw [h2] at h; exact h.elim
    | some t' =>
      rw [h2] at h
      have h : TokenAgree t t' := h
      have hv : ∀ key, Jwt.verifies (saying lib d hd) (t'.alg.getD []) s key = Jwt.verifies lib (t.alg.getD []) s key := by
        intro key
        rw [h.alg]
        cases key <;> rfl
      dsimp only
      rw [h.alg]
      cases t.alg.bind Jwt.family with
      | none => exact hk t t' h _ _
      | some f =>
        dsimp only
        rw [hkf t t' h, bind_assoc, bind_assoc]
        refine bind_congr fun x => ?_
        obtain ⟨kr, s1⟩ := x
        cases kr with
        | oauthErr e => exact hk t t' h _ _
        | err => exact hk t t' h _ _
        | key key =>
          dsimp only
          rw [bind_assoc, bind_assoc]
          refine bind_congr fun now => ?_
          rw [h.claims b!"exp" (by decide +kernel), h.claims b!"iat" (by decide +kernel), h.claims b!"nbf" (by decide +kernel), ← h.alg, hv,
            h.alg]
          exact hk t t' h _ _

theorem handle_said {t t' : JwtToken} (h : TokenAgree t t') {a gt c e} :
    Assertion.handle a gt c (some t') e = Assertion.handle a gt c (some t) e := by
  unfold Assertion.handle Assertion.checkClaims
  cases e
  case some e => rfl
  dsimp only
  rw [h.claims b!"exp" (by decide +kernel), h.claims b!"iat" (by decide +kernel), same_claimStr h (n := b!"jti") (by decide +kernel),
    same_claimStr h (n := b!"aud") (by decide +kernel)]

theorem byAssertion_said {cfg : TokenCfg} {gt ca : GoStr} (h : SameSaid (lib.jwtDecode ca) (d ca)) :
    TokenEndpoint.validateClientByAssertion cfg (saying lib d hd) gt ca = TokenEndpoint.validateClientByAssertion cfg lib gt ca := by
  unfold TokenEndpoint.validateClientByAssertion
  refine parse_said h (fun t t' ht => ?_) fun t t' ht e x => ?_
  · unfold TokenEndpoint.assertionKeyFunc
    rw [same_claimStr ht (n := b!"sub") (by decide +kernel), ht.alg, ht.kid]
  · dsimp only
    rw [handle_said ht]

theorem xparse_said {β : Type} {ε : Type} {s : GoStr} {s0 : σ} {kf : JwtToken → Prog (Jwt.KeyRes × σ)}
    {k : Option JwtToken × Option Jwt.VErr × σ → ExceptT ε Prog β} (h : SameSaid (lib.jwtDecode s) (d s))
    (hkf : ∀ t t', TokenAgree t t' → kf t' = kf t)
    (hk : ∀ t t', TokenAgree t t' → ∀ e x, k (some t', e, x) = k (some t, e, x)) :
    (ExceptT.lift (Jwt.parse (saying lib d hd) s s0 kf) >>= k) = (ExceptT.lift (Jwt.parse lib s s0 kf) >>= k) := by
  have e1 : ∀ p : Prog (Option JwtToken × Option Jwt.VErr × σ), (ExceptT.lift p >>= k : ExceptT ε Prog β).run = p >>= fun x => (k x).run := by
    intro p
    rw [xrun_bind, show (ExceptT.lift p : ExceptT ε Prog _).run = p >>= fun a => pure (Except.ok a) from rfl]
    exact bind_assoc p _ _
  refine ExceptT.ext ?_
  rw [e1, e1]
  exact parse_said h hkf fun t t' ht e x => by rw [hk t t' ht]

theorem jwt_said (h : ∀ s, SameSaid (lib.jwtDecode s) (d s)) : Grant.jwt (saying lib d hd) = Grant.jwt lib := by
  funext r c now
  unfold Grant.jwt
  dsimp only
  refine bind_congr fun a => ?_
  refine xparse_said (h a) (fun t t' ht => ?_) fun t t' ht e x => ?_
  · unfold Grant.jwtKeyFunc
    rw [ht.alg, ht.kid]
  · dsimp only
    rw [handle_said ht, same_claimStr ht (n := b!"sub") (by decide +kernel)]

theorem func_said (h : ∀ s, SameSaid (lib.jwtDecode s) (d s)) (g : ShippedGrant) : g.func (saying lib d hd) = g.func lib := by
  cases g
  case jwt => exact jwt_said h
  all_goals rfl

/-- C118, token endpoint: if all tokens said the same in the understood claims but something else in others, exactly the same
would happen on every request: the same calls, log lines, response and outcome. -/
theorem C118_token {cfg : TokenCfg} {gs : List (GoStr × ShippedGrant)} {t : List Event} {o : Outcome Unit}
    (h : ∀ s, SameSaid (lib.jwtDecode s) (d s)) :
    Runs (TokenEndpoint.handler (configured lib cfg gs) lib r) t o ↔
      Runs (TokenEndpoint.handler (configured (saying lib d hd) cfg gs) (saying lib d hd) r) t o := by
  have e1 : configured (saying lib d hd) cfg gs = configured lib cfg gs := by
    unfold configured
    simp only [func_said h]
  have e2 : TokenEndpoint.handler (configured lib cfg gs) (saying lib d hd) r = TokenEndpoint.handler (configured lib cfg gs) lib r := by
    unfold TokenEndpoint.handler
    simp only [fun gt ca => byAssertion_said (hd := hd) (cfg := configured lib cfg gs) (gt := gt) (h ca)]
  rw [e1, e2]

/-! ## The authorization endpoint -/

theorem hint_said (h : ∀ s, SameSaid (lib.jwtDecode s) (d s)) {c : Client} {q : Request} :
    AuthzEndpoint.checkIdTokenHint (saying lib d hd) r c q = AuthzEndpoint.checkIdTokenHint lib r c q := by
  unfold AuthzEndpoint.checkIdTokenHint
  dsimp only
  split
  · rfl
  · refine xparse_said (h _) (fun t t' ht => rfl) fun t t' ht e x => ?_
    cases e with
    | some e => rfl
    | none =>
      dsimp only
      rw [ht.claims b!"exp" (by decide +kernel), same_claimStr ht (n := b!"sub") (by decide +kernel)]

theorem promptNone_said (h : ∀ s, SameSaid (lib.jwtDecode s) (d s)) {policy : Policy} {c : Client} {q : Request} :
    AuthzEndpoint.promptNone policy (saying lib d hd) r c q = AuthzEndpoint.promptNone policy lib r c q := by
  unfold AuthzEndpoint.promptNone
  rw [hint_said h]
  rfl

/-- C118, authorization endpoint: the same for what ID token hints say. -/
theorem C118_authorization {policy : Policy} {t : List Event} {o : Outcome Bool} (h : ∀ s, SameSaid (lib.jwtDecode s) (d s)) :
    Runs (AuthzEndpoint.handleRequest policy lib r) t o ↔ Runs (AuthzEndpoint.handleRequest policy (saying lib d hd) r) t o := by
  have : AuthzEndpoint.handleRequestM policy (saying lib d hd) r = AuthzEndpoint.handleRequestM policy lib r := by
    unfold AuthzEndpoint.handleRequestM
    simp only [promptNone_said h]
    rfl
  unfold AuthzEndpoint.handleRequest
  rw [this]

theorem reissued_said (iss : Option JVal) : ∀ o : Option JwtToken, SameSaid o (o.map (reissued iss))
  | none => trivial
  | some t => by
    refine ⟨rfl, rfl, fun n hn => ?_⟩
    have hne : n ≠ b!"iss" := by
      rintro rfl
      exact absurd hn (by decide +kernel)
    unfold JwtToken.claim reissued
    dsimp only
    rw [List.find?_append]
    have h1 : (iss.map fun v => (b!"iss", v)).toList.find? (fun kv => kv.1 == n) = none := by
      cases iss with
      | none => rfl
      | some v => simpa using fun h => hne h.symm
    have h2 : (t.claims.filter (fun kv => kv.1 != b!"iss")).find? (fun kv => kv.1 == n) = t.claims.find? (fun kv => kv.1 == n) := by
      rw [List.find?_filter]
      congr 1
      funext kv
      by_cases hk : kv.1 = n
      · simp [hk, hne]
      · simp [hk]
    rw [h1, h2]
    rfl

theorem reissued_raw {iss : Option JVal} (s : GoStr) (t : JwtToken) (h : (lib.jwtDecode s).map (reissued iss) = some t) : t.raw = s := by
  obtain ⟨t0, h0, rfl⟩ := Option.map_eq_some_iff.1 h
  exact lib.jwtDecode_raw s t0 h0

/-- The sample token with and without further claims: other issuers, and claims nobody knows, are said alike; another subject
is not. -/
example : TokenAgree Sample.jwt { Sample.jwt with claims := (b!"scope", .str b!"admin") :: Sample.jwt.claims ++ [(b!"iss", .other)] } ∧
    ¬ TokenAgree Sample.jwt { Sample.jwt with claims := (b!"sub", .str b!"other") :: Sample.jwt.claims } ∧
    (∀ s, SameSaid (Sample.lib.jwtDecode s) ((Sample.lib.jwtDecode s).map (reissued (some (.str b!"somebody"))))) :=
  ⟨⟨rfl, rfl, by decide +kernel⟩, fun h => absurd (h.claims b!"sub" (by decide +kernel)) (by decide +kernel), fun s => reissued_said _ _⟩

/-! ## C119: the issuer -/

/-- C119 fails in full: a client without another credential is authenticated, and a token granted, by an assertion
that names no issuer; and a token is granted for such an assertion about a user. -/
theorem C119_false :
    (∃ (cfg : TokenCfg) (r : Req) (t : List Event) (resp : HttpResp) (ca : GoStr) (tk : JwtToken), AllBuiltIn Sample.lib cfg ∧
      (∀ cid sec b, ¬ Presented cfg.acceptance r cid sec b) ∧ PresentedAssertion r ca ∧ Sample.lib.jwtDecode ca = some tk ∧ ¬ HasIssuer tk ∧
      Steps (TokenEndpoint.handler cfg Sample.lib r) (t ++ [wrote resp]) ∧ resp.status = 200) ∧
    (∃ (cfg : TokenCfg) (r : Req) (t : List Event) (resp : HttpResp) (tk : JwtToken), AllBuiltIn Sample.lib cfg ∧
      Registered cfg r (Grant.jwt Sample.lib) ∧ Sample.lib.jwtDecode (r.formValue b!"assertion") = some tk ∧ ¬ HasIssuer tk ∧
      Steps (TokenEndpoint.handler cfg Sample.lib r) (t ++ [wrote resp]) ∧ resp.status = 200) := by
  have hi : ¬ HasIssuer Sample.jwt := by
    rintro ⟨iss, h⟩
    have : Sample.jwt.claim b!"iss" = none := by decide +kernel
    rw [this] at h
    cases h
  obtain ⟨pre, resp, h, hs⟩ := Sample.World.steps (w := {})
    (p := TokenEndpoint.handler Sample.tokenCfg Sample.lib (Sample.postAssertion b!"tok" Sample.ccBody)) (n := 200) (by decide +kernel)
  obtain ⟨pre', resp', h', hs'⟩ := Sample.World.steps (w := {})
    (p := TokenEndpoint.handler Sample.tokenCfg Sample.lib (Sample.post Sample.jwtBody)) (n := 200) (by decide +kernel)
  exact ⟨⟨_, _, pre, resp, b!"tok", Sample.jwt, sample_allBuiltIn, findClientCredential_none.1 (by decide +kernel),
      ⟨by decide +kernel, by decide +kernel, by decide +kernel⟩, rfl, hi, h, hs⟩,
    Sample.tokenCfg, Sample.post Sample.jwtBody, pre', resp', Sample.jwt, sample_allBuiltIn, rfl, rfl, hi, h', hs'⟩

/-- C119, how general this is: whatever the assertions said about their issuers, exactly the same would happen on every token
request. -/
theorem C119_unread {cfg : TokenCfg} {gs : List (GoStr × ShippedGrant)} {t : List Event} {o : Outcome Unit} (iss : Option JVal) :
    Runs (TokenEndpoint.handler (configured lib cfg gs) lib r) t o ↔
      Runs (TokenEndpoint.handler (configured (saying lib (fun s => (lib.jwtDecode s).map (reissued iss)) reissued_raw) cfg gs)
        (saying lib (fun s => (lib.jwtDecode s).map (reissued iss)) reissued_raw) r) t o :=
  C118_token fun s => reissued_said iss (lib.jwtDecode s)

/-! ## C120: several credentials in one request -/

open TokenEndpoint

variable {r' : Req} {cfg : TokenCfg}

theorem grant_asks {h : GrantFunc} (hb : BuiltIn lib h) (hk : ∀ n ∈ grantParamNames, r'.formValue n = r.formValue n)
    (c : Client) (now : Int64) : h r' c now = h r c now := by
  simp only [grantParamNames, List.forall_mem_cons] at hk
  obtain ⟨-, k1, k2, k3, k4, k5, k6, k7, k8, k9, -⟩ := hk
  cases hb with
  | authorizationCode =>
    have e : ∀ s, Grant.checkPkce lib r' c s = Grant.checkPkce lib r c s := by
      intro s
      unfold Grant.checkPkce
      simp only [needParam_same k3, needParam_same k4]
    unfold Grant.authorizationCode
    simp only [needParam_same k1, needParam_same k2, e]
  | refreshToken =>
    unfold Grant.refreshToken
    simp only [needParam_same k5]
  | clientCredentials =>
    unfold Grant.clientCredentials
    simp only [k8]
  | jwt =>
    unfold Grant.jwt
    simp only [needParam_same k9, k8]
  | password =>
    unfold Grant.password
    simp only [needParam_same k6, needParam_same k7, k8]

theorem handler_asks (hb : AllBuiltIn lib cfg) (h : SameAsking r r')
    (hc : findClientCredential cfg r' = findClientCredential cfg r)
    (ha : findClientCredential cfg r = none → findClientAssertion r' = findClientAssertion r) :
    handler cfg lib r' = handler cfg lib r := by
  have vs : ∀ gt cid sec b, validateClientBySecret cfg r' gt cid sec b = validateClientBySecret cfg r gt cid sec b := by
    intro gt cid sec b
    unfold validateClientBySecret Req.header
    rw [h.headers]
  unfold handler
  rw [h.method, h.method', h.values b!"grant_type" (by decide +kernel), hc]
  split
  · rfl
  · dsimp only
    split
    · rfl
    · split
      · rfl
      · rename_i hd hh
        have ge : ∀ c gt, executeGrantHandler cfg r' c gt hd = executeGrantHandler cfg r c gt hd := by
          intro c gt
          unfold executeGrantHandler
          simp only [grant_asks (hb _ _ hh) h.values]
        cases hf : findClientCredential cfg r with
        | some x => simp only [ge, vs]
        | none => simp only [ge, ha hf]

/-- A code exchange with the Basic header of one client and the client id and secret of another one in the body. -/
def twoClients : Req := Sample.post (Sample.codeBody ++ [(b!"client_id", b!"other"), (b!"client_secret", b!"theirs")])

/-- C120 fails in full: a request with the credentials of two clients is granted. -/
theorem C120_false :
    ∃ (cfg : TokenCfg) (r : Req) (t : List Event) (resp : HttpResp), AllBuiltIn Sample.lib cfg ∧ TwoClients Sample.lib r ∧
      Steps (handler cfg Sample.lib r) (t ++ [wrote resp]) ∧ resp.status = 200 := by
  obtain ⟨pre, resp, h, hs⟩ := Sample.World.steps (w := {})
    (p := handler Sample.tokenCfg Sample.lib twoClients) (n := 200) (by decide +kernel)
  refine ⟨Sample.tokenCfg, twoClients, pre, resp, sample_allBuiltIn, .inr (.inl ?_), h, hs⟩
  cases hb : twoClients.basicAuth with
  | none => exact absurd hb (by decide +kernel)
  | some x =>
    refine ⟨x.1, x.2, rfl, by decide +kernel, fun e => ?_⟩
    have : (twoClients.basicAuth.map (·.1)) = some b!"client" := by decide +kernel
    rw [hb] at this
    injection this with this
    have this : x.1 = b!"client" := this
    rw [this] at e
    exact absurd e (by decide +kernel)

/-- The same with a client assertion and the client id of another client. -/
example : TwoClients Sample.lib (Sample.postAssertion b!"tok" (Sample.ccBody ++ [(b!"client_id", b!"other")])) ∧
    ({} : Sample.World).status (handler Sample.tokenCfg Sample.lib
      (Sample.postAssertion b!"tok" (Sample.ccBody ++ [(b!"client_id", b!"other")]))) = some 200 :=
  ⟨.inr (.inr ⟨b!"tok", Sample.jwt, b!"client", ⟨by decide +kernel, by decide +kernel, by decide +kernel⟩, rfl, by decide +kernel,
    by decide +kernel, by decide +kernel⟩), by decide +kernel⟩

/-- C120, which one counts: a secret counts before an assertion, in the order of the acceptance policy, and beside the
credential that counts no other is looked at.  Two requests for the same thing that present the same secret where it counts are
served alike, whatever assertions they carry and, if it is in the header, whatever client ids and secrets stand in their
parameters; so are two that present no secret and the same assertion, whatever client ids they carry beside it. -/
theorem C120_one_counts {t : List Event} {o : Outcome Unit} (hb : AllBuiltIn lib cfg) (h : SameAsking r r')
    (hc : (∃ cid sec b, Presented cfg.acceptance r cid sec b ∧ Presented cfg.acceptance r' cid sec b) ∨
      ((∀ cid sec b, ¬ Presented cfg.acceptance r cid sec b) ∧ (∀ cid sec b, ¬ Presented cfg.acceptance r' cid sec b) ∧
        (∀ ca, PresentedAssertion r' ca ↔ PresentedAssertion r ca))) :
    Runs (handler cfg lib r) t o ↔ Runs (handler cfg lib r') t o := by
  refine Iff.of_eq (congrArg (Runs · t o) (Eq.symm ?_))
  rcases hc with ⟨cid, sec, b, h1, h2⟩ | ⟨h1, h2, h3⟩
  · have e1 := findClientCredential_iff.2 h1
    refine handler_asks hb h ((findClientCredential_iff.2 h2).trans e1.symm) fun hn => ?_
    rw [hn] at e1
    cases e1
  · have e1 := findClientCredential_none.2 h1
    refine handler_asks hb h ((findClientCredential_none.2 h2).trans e1.symm) fun _ => ?_
    have key : ∀ (r : Req) ca, findClientAssertion r = some ca ↔ PresentedAssertion r ca := by
      intro r ca
      unfold findClientAssertion PresentedAssertion clientAssertionTypeJWT
      dsimp only
      split
      · rename_i hh
        constructor
        · intro e
          injection e with e
          subst e
          exact ⟨rfl, hh.1, hh.2⟩
        · rintro ⟨e, -, -⟩
          rw [e]
      · rename_i hh
        constructor
        · intro e; cases e
        · rintro ⟨rfl, h1, h2⟩
          exact absurd ⟨h1, h2⟩ hh
    refine Option.ext fun ca => ?_
    rw [key, key, h3]

/-- The hypotheses are met by the sample exchange with and without the credentials of another client in its parameters, and by
the assertion of the samples with and without a client id. -/
example : (SameAsking (Sample.post Sample.codeBody) twoClients ∧
      ∃ cid sec b, Presented .fromAll (Sample.post Sample.codeBody) cid sec b ∧ Presented .fromAll twoClients cid sec b) ∧
    (SameAsking (Sample.postAssertion b!"tok" Sample.ccBody) (Sample.postAssertion b!"tok" (Sample.ccBody ++ [(b!"client_id", b!"other")])) ∧
      (∀ cid sec b, ¬ Presented Sample.tokenCfg.acceptance (Sample.postAssertion b!"tok" Sample.ccBody) cid sec b) ∧
      (∀ cid sec b, ¬ Presented Sample.tokenCfg.acceptance
        (Sample.postAssertion b!"tok" (Sample.ccBody ++ [(b!"client_id", b!"other")])) cid sec b)) := by
  refine ⟨⟨⟨rfl, rfl, rfl, by decide +kernel⟩, ?_⟩, ⟨rfl, rfl, rfl, by decide +kernel⟩, findClientCredential_none.1 (by decide +kernel),
    findClientCredential_none.1 (by decide +kernel)⟩
  have h1 : (Sample.post Sample.codeBody).basicAuth = twoClients.basicAuth := rfl
  cases hb : twoClients.basicAuth with
  | none => exact absurd hb (by decide +kernel)
  | some x => exact ⟨x.1, x.2, true, .header _ _ (h1.trans hb), .header _ _ hb⟩

end Goidc.Props
