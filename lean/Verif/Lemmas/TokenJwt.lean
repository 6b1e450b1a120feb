import Verif.Lemmas.TokenDecision

/-! # Assertions follow their table -/

namespace Goidc

open Spec Props

variable {α β γ : Type} {lib : Lib} {r : Req} {c : Client} {now : Int64} {gt a : GoStr} {tk : JwtToken}

/-- The part of `assertionOf` after the key is known. -/
def afterKey (lib : Lib) (c : Client) (a : GoStr) (tk : JwtToken) (key : Key) : Table Unit := do
  let wall ← observe .wallNow
  endIf (¬ SignatureOk lib (tk.alg.getD []) a key) (.refused .invalidClient b!"invalid assertion signature")
  endIf (¬ NotExpired wall (tk.claim b!"exp")) (.refused .invalidGrant b!"assertion expired")
  endIf (¬ NotEarly wall (tk.claim b!"nbf")) (.refused .invalidGrant b!"assertion not valid yet")
  endIf (¬ NotEarly wall (tk.claim b!"iat")) (.refused .invalidGrant b!"invalid assertion")
  let exp ← find (fun n => NumberClaim tk b!"exp" n)
    (.refused .invalidRequest b!"'exp' parameter not found in assertion")
  let iat ← find (RecordedIat tk) .crash
  let jti ← find (RecordedJti tk) .crash
  let _ ← Obtain (.recordAssertionClaims c.id jti iat exp) (fun e => (some (), e)) (.refused .invalidRequest [])
  let aud ← find (fun s => tk.claimStr b!"aud" = some s)
    (.refused .invalidRequest b!"'aud' parameter not found in assertion")
  let issuer ← observe .issuer
  endIf (issuer = []) (.refused .serverError [])
  endIf (aud ≠ issuer) (.refused .invalidGrant (b!"invalid 'aud' parameter '" ++ aud ++ b!"' in assertion"))

theorem assertionOf_eq : assertionOf lib c a tk = (find (fun k => c.assertionKey (tk.alg.getD []) (tk.kid.getD []) = some k)
    (.refused .invalidGrant b!"assertion unverifiable") >>= afterKey lib c a tk) := rfl

theorem numClaim_some {k : GoStr} {n : Int64} : Assertion.numClaim (tk.claim k) = some n ↔ NumberClaim tk k n := by
  unfold NumberClaim Assertion.numClaim
  split <;> simp_all

theorem gf_checkClaims : GF (Assertion.checkClaims a gt (some c) tk) (do
    let exp ← find (fun n => NumberClaim tk b!"exp" n)
      (.refused .invalidRequest b!"'exp' parameter not found in assertion")
    let iat ← find (RecordedIat tk) .crash
    let jti ← find (RecordedJti tk) .crash
    let _ ← Obtain (.recordAssertionClaims c.id jti iat exp) (fun e => (some (), e)) (.refused .invalidRequest [])
    let aud ← find (fun s => tk.claimStr b!"aud" = some s)
      (.refused .invalidRequest b!"'aud' parameter not found in assertion")
    let issuer ← observe .issuer
    endIf (issuer = []) (.refused .serverError [])
    endIf (aud ≠ issuer) (.refused .invalidGrant (b!"invalid 'aud' parameter '" ++ aud ++ b!"' in assertion"))) := by
  unfold Assertion.checkClaims
  cases he : Assertion.numClaim (tk.claim b!"exp") with
  | none =>
    refine gf_log (gf_throw ⟨rfl, rfl⟩ (table_end (find_none fun n hn => ?_)))
    rw [numClaim_some.2 hn] at he; cases he
  | some exp =>
    refine gf_head (find_some (numClaim_some.1 he)) ?_
    have hi : RecordedIat tk ((Assertion.numClaim (tk.claim b!"iat")).getD (-1)) := by
      cases hi : Assertion.numClaim (tk.claim b!"iat") with
      | none => exact .inr ⟨fun m hm => absurd (numClaim_some.2 hm) (by rw [hi]; simp), rfl⟩
      | some n => exact .inl (numClaim_some.1 hi)
    have hj : RecordedJti tk ((tk.claimStr b!"jti").getD []) := by
      cases hj : tk.claimStr b!"jti" with
      | none => exact .inr ⟨hj, rfl⟩
      | some n => exact .inl hj
    refine gf_head (find_some hi) (gf_head (find_some hj) ?_)
    simp only [Assertion.clientId, xrun_pure_bind]
    refine gf_obtainErr (q := .recordAssertionClaims _ _ _ _) (err := id) (val := fun _ => ()) (by rfl) (by rfl) (by rfl) fun _ => ?_
    cases ha : tk.claimStr b!"aud" with
    | none => exact gf_log (gf_throw ⟨rfl, rfl⟩ (table_end (find_none (fun _ h => by cases h))))
    | some aud =>
      refine gf_head (find_some rfl) ?_
      refine gf_observe rfl fun iss => ?_
      refine gf_endIf Iff.rfl ⟨rfl, rfl⟩ fun h => ?_
      split
      · rename_i hn
        exact gf_log (gf_throw ⟨rfl, rfl⟩ (endIf_pos hn))
      · rename_i hn
        exact gf_mono gf_pure fun c res h => by obtain ⟨rfl, rfl⟩ := h; exact endIf_neg hn

/-- The verdict of the library once the key is known. -/
def keyedErr (lib : Lib) (a : GoStr) (tk : JwtToken) (k : Key) (wall : Int64) : Option Jwt.VErr :=
  let e : Jwt.VErr :=
    { expired := !Jwt.expOk wall (tk.claim b!"exp")
      issuedAt := !Jwt.notBeforeOk wall (tk.claim b!"iat")
      notValidYet := !Jwt.notBeforeOk wall (tk.claim b!"nbf")
      signatureInvalid := !Jwt.verifies lib (tk.alg.getD []) a k }
  if e.none? then none else some e

/-- The program after the key is known. -/
theorem gf_afterKey {k : Key} :
    GF (gask .wallNow >>= fun wall => Assertion.handle a gt (some c) (some tk) (keyedErr lib a tk k wall))
      (afterKey lib c a tk k) := by
  refine gf_observe rfl fun wall => ?_
  have h1 : Jwt.verifies lib (tk.alg.getD []) a k = true ↔ SignatureOk lib (tk.alg.getD []) a k := verifies_iff
  have h2 : Jwt.expOk wall (tk.claim b!"exp") = true ↔ NotExpired wall (tk.claim b!"exp") := expOk_iff
  have h3 : Jwt.notBeforeOk wall (tk.claim b!"nbf") = true ↔ NotEarly wall (tk.claim b!"nbf") := notBeforeOk_iff
  have h4 : Jwt.notBeforeOk wall (tk.claim b!"iat") = true ↔ NotEarly wall (tk.claim b!"iat") := notBeforeOk_iff
  unfold keyedErr
  generalize Jwt.verifies lib (tk.alg.getD []) a k = v1 at *
  generalize Jwt.expOk wall (tk.claim b!"exp") = v2 at *
  generalize Jwt.notBeforeOk wall (tk.claim b!"nbf") = v3 at *
  generalize Jwt.notBeforeOk wall (tk.claim b!"iat") = v4 at *
  cases v1
  · rw [← h1]
    cases v2 <;> cases v3 <;> cases v4 <;> exact gf_log (gf_throw ⟨rfl, rfl⟩ (table_end (endIf_pos (by simp))))
  refine gf_head (endIf_neg (not_not_intro (h1.1 rfl))) ?_
  cases v2
  · rw [← h2]
    cases v3 <;> cases v4 <;> exact gf_log (gf_throw ⟨rfl, rfl⟩ (table_end (endIf_pos (by simp))))
  refine gf_head (endIf_neg (not_not_intro (h2.1 rfl))) ?_
  cases v3
  · rw [← h3]
    cases v4 <;> exact gf_log (gf_throw ⟨rfl, rfl⟩ (table_end (endIf_pos (by simp))))
  refine gf_head (endIf_neg (not_not_intro (h3.1 rfl))) ?_
  cases v4
  · rw [← h4]
    exact gf_log (gf_throw ⟨rfl, rfl⟩ (table_end (endIf_pos (by simp))))
  refine gf_head (endIf_neg (not_not_intro (h4.1 rfl))) ?_
  exact gf_checkClaims

theorem usableAlg_iff : UsableAlg tk ↔ ∃ fam, tk.alg.bind Jwt.family = some fam := by
  unfold UsableAlg
  cases h : tk.alg with
  | none => simp
  | some alg =>
    simp only [Option.some.injEq, Option.bind_some]
    rw [family_known]
    simp

variable {σ : Type} {s0 s1 : σ} {kf : JwtToken → Prog (Jwt.KeyRes × σ)}

theorem parse_malformed (hd : lib.jwtDecode a = none) :
    Jwt.parse lib a s0 kf = pure (none, some { malformed := true }, s0) := by
  unfold Jwt.parse; rw [hd]

theorem parse_alg (hd : lib.jwtDecode a = some tk) (hf : tk.alg.bind Jwt.family = none) :
    Jwt.parse lib a s0 kf = pure (some tk, some { unverifiable := true }, s0) := by
  unfold Jwt.parse; rw [hd]; dsimp only; rw [hf]

/-- What the library makes of the answer of the key function. -/
def afterKeyFunc (lib : Lib) (a : GoStr) (tk : JwtToken) (x : Jwt.KeyRes × σ) :
    Prog (Option JwtToken × Option Jwt.VErr × σ) :=
  match x.1 with
  | .oauthErr e => pure (some tk, some { unverifiable := true, inner := some e }, x.2)
  | .err => pure (some tk, some { unverifiable := true }, x.2)
  | .key k => (ask .wallNow).bind fun now => pure (some tk, keyedErr lib a tk k now, x.2)

theorem parse_keyFunc {fam} (hd : lib.jwtDecode a = some tk) (hf : tk.alg.bind Jwt.family = some fam) :
    Jwt.parse lib a s0 kf = (kf tk).bind (afterKeyFunc lib a tk) := by
  unfold Jwt.parse; rw [hd]; dsimp only; rw [hf]
  show Prog.bind _ _ = _
  congr 1

theorem find_none_eq {α : Type} {e : Reply} : find (fun a => (none : Option α) = some a) e [] (.inr e) :=
  find_none fun _ h => by cases h

theorem gf_fails {p : GrantM α} {R : Table α} {l : LogLine} {e : OAuthError}
    (hp : p.run = Prog.call (.log l) fun _ => .ret (.error e)) (hu : OkErr e)
    (h : R [] (.inr (.refused e.type e.description))) : GF p R := by
  intro t o hr
  rw [hp] at hr
  obtain ⟨_, _, rfl, rfl, rfl⟩ := hr
  refine ⟨?_, ?_, ?_⟩
  · rintro _ ⟨⟩
  · rintro _ ⟨⟩; exact ⟨hu, h⟩
  · rintro ⟨⟩

theorem gf_fails2 {p : GrantM α} {R : Table α} {l l' : LogLine} {e : OAuthError}
    (hp : p.run = Prog.call (.log l) fun _ => Prog.call (.log l') fun _ => .ret (.error e)) (hu : OkErr e)
    (h : R [] (.inr (.refused e.type e.description))) : GF p R := by
  intro t o hr
  rw [hp] at hr
  obtain ⟨_, _, rfl, _, _, rfl, rfl, rfl⟩ := hr
  refine ⟨?_, ?_, ?_⟩
  · rintro _ ⟨⟩
  · rintro _ ⟨⟩; exact ⟨hu, h⟩
  · rintro ⟨⟩

theorem gy_jwt : GY (Grant.jwt lib r c now) (jwtGrant lib r c) := by
  unfold GY Grant.jwt jwtGrant
  simp only [table_assoc]
  refine gf_require fun h1 => ?_
  cases hd : lib.jwtDecode (r.formValue b!"assertion") with
  | none =>
    rw [parse_malformed hd]
    exact gf_fails (by rfl) ⟨rfl, rfl⟩ (table_end find_none_eq)
  | some tk =>
    refine gf_head (find_some rfl) ?_
    cases hf : tk.alg.bind Jwt.family with
    | none =>
      rw [parse_alg hd hf]
      refine gf_fails (by rfl) ⟨rfl, rfl⟩ (table_end (endIf_pos ?_))
      rw [usableAlg_iff, hf]
      rintro ⟨_, ⟨⟩⟩
    | some fam =>
      rw [parse_keyFunc hd hf]
      refine gf_head (endIf_neg (not_not_intro (usableAlg_iff.2 ⟨_, hf⟩))) ?_
      unfold Grant.jwtKeyFunc
      rw [assertionOf_eq, table_assoc]
      cases hk : c.assertionKey (tk.alg.getD []) (tk.kid.getD []) with
      | none =>
        exact gf_fails (by rfl) ⟨rfl, rfl⟩ (table_end find_none_eq)
      | some k =>
        refine gf_head (find_some rfl) ?_
        have hb : ∀ (F : Option JwtToken × Option Jwt.VErr × Unit → GrantM Response),
            (ExceptT.lift (Prog.bind (pure (Jwt.KeyRes.key k, ())) (afterKeyFunc lib (r.formValue b!"assertion") tk)) >>= F)
              = (gask .wallNow >>= fun wall => F (some tk, keyedErr lib (r.formValue b!"assertion") tk k wall, ())) :=
          fun _ => rfl
        rw [hb]
        refine gf_bind (p := gask .wallNow >>= fun wall => Assertion.handle (r.formValue b!"assertion") Grant.typeJWT (some c) (some tk)
          (keyedErr lib (r.formValue b!"assertion") tk k wall)) gf_afterKey fun _ _ _ => ?_
        cases hs : tk.claimStr b!"sub" with
        | none => exact gf_log (gf_throw ⟨rfl, rfl⟩ (table_end (find_none (fun _ h => by cases h))))
        | some sub =>
          refine gf_head (find_some rfl) ?_
          refine gf_obtainErr (q := .findUserIdBySubject _) (err := fun x => x.2) (val := fun x => x.1) (by rfl) (by rfl) (by rfl) fun x => ?_
          exact gf_checkScope gy_issue

/-! ## The table of every grant -/

theorem gy_grant (kind : GrantKind) : GY (kind.handler lib r c now) (grantTable lib r c now kind) := by
  cases kind
  · exact gy_code
  · exact gy_refresh
  · exact gy_password (now := now)
  · exact gy_client (now := now)
  · exact gy_jwt (now := now)

/-! ## Client assertions -/

/-- The client assertion as a grant function. -/
def assertedClient (lib : Lib) (gt ca : GoStr) : GrantM Client := do
  let p ← ExceptT.lift (Jwt.parse lib ca none (TokenEndpoint.assertionKeyFunc gt ca))
  Assertion.handle ca gt p.2.2 p.1 p.2.1
  match p.2.2 with
  | some c => pure c
  | none => gpanic

theorem gf_assertedClient {ca : GoStr} : GF (assertedClient lib gt ca) (clientByAssertion lib ca) := by
  unfold assertedClient clientByAssertion
  cases hd : lib.jwtDecode ca with
  | none =>
    rw [parse_malformed hd]
    refine gf_panic (table_end (find_none (fun _ h => by cases h)))
  | some tk =>
    refine gf_head (find_some rfl) ?_
    cases hf : tk.alg.bind Jwt.family with
    | none =>
      rw [parse_alg hd hf]
      refine gf_fails (by rfl) ⟨rfl, rfl⟩ (table_end (endIf_pos ?_))
      rw [usableAlg_iff, hf]
      rintro ⟨_, ⟨⟩⟩
    | some fam =>
      rw [parse_keyFunc hd hf]
      refine gf_head (endIf_neg (not_not_intro (usableAlg_iff.2 ⟨_, hf⟩))) ?_
      unfold TokenEndpoint.assertionKeyFunc
      cases hs : tk.claimStr b!"sub" with
      | none =>
        exact gf_fails2 (by rfl) ⟨rfl, rfl⟩ (table_end find_none_eq)
      | some sub =>
        refine gf_head (find_some rfl) ?_
        have hb : ∀ (g : Option Client × Option ErrType → Prog (Jwt.KeyRes × Option Client))
            (F : Option JwtToken × Option Jwt.VErr × Option Client → GrantM Client),
            (ExceptT.lift (Prog.bind ((ask (.findClientById sub)).bind g) (afterKeyFunc lib ca tk)) >>= F)
              = (gask (.findClientById sub) >>= fun x => ExceptT.lift ((g x).bind (afterKeyFunc lib ca tk)) >>= F) :=
          fun _ _ => rfl
        show GF (ExceptT.lift (Prog.bind ((ask (.findClientById sub)).bind _) (afterKeyFunc lib ca tk)) >>= _) _
        rw [hb]
        refine gf_ask rfl fun x => ?_
        obtain ⟨v, _ | err⟩ := x
        · cases v with
          | none =>
            exact .inr ⟨OAuthError.simple .serverError, ⟨rfl, rfl⟩, .nothing rfl, gf_fails2 (by rfl) ⟨rfl, rfl⟩ ⟨rfl, rfl⟩⟩
          | some c =>
            refine .inl ⟨c, .value rfl, ?_⟩
            rw [assertionOf_eq, table_assoc]
            dsimp only
            cases hk : c.assertionKey (tk.alg.getD []) (tk.kid.getD []) with
            | none => exact gf_fails2 (by rfl) ⟨rfl, rfl⟩ (table_end find_none_eq)
            | some k =>
              refine gf_head (find_some rfl) ?_
              exact gf_bind (p := gask .wallNow >>= fun wall => Assertion.handle ca gt (some c) (some tk)
                (keyedErr lib ca tk k wall)) gf_afterKey fun _ _ _ => gf_pure
        · cases err with
          | failed =>
            exact .inr ⟨OAuthError.simple .invalidClient, ⟨rfl, rfl⟩, .refused rfl, gf_fails2 (by rfl) ⟨rfl, rfl⟩ ⟨rfl, rfl⟩⟩
          | unsupported =>
            exact .inr ⟨OAuthError.simple .serverError, ⟨rfl, rfl⟩, .failed rfl (by simp), gf_fails2 (by rfl) ⟨rfl, rfl⟩ ⟨rfl, rfl⟩⟩
          | serverError =>
            exact .inr ⟨OAuthError.simple .serverError, ⟨rfl, rfl⟩, .failed rfl (by simp), gf_fails2 (by rfl) ⟨rfl, rfl⟩ ⟨rfl, rfl⟩⟩
          | other n =>
            exact .inr ⟨OAuthError.simple .serverError, ⟨rfl, rfl⟩, .failed rfl (by simp), gf_fails2 (by rfl) ⟨rfl, rfl⟩ ⟨rfl, rfl⟩⟩

end Goidc
