import Verif.Lemmas.TokenTable
import Verif.Props.Encodings

/-! # The grants follow their tables -/

namespace Goidc

open Spec Props

variable {α β γ : Type} {lib : Lib} {r : Req} {c : Client} {now : Int64} {gt : GoStr}

theorem gf_endIf {cond : Prop} [Decidable cond] {p : Prop} {lv ev ps} {e : OAuthError} {rest : GrantM α} {S : Unit → Table α}
    (hp : cond ↔ p) (hu : OkErr e) (h : ¬ p → GF rest (S ())) :
    GF (if cond then (glog lv gt ev ps >>= fun _ => throw e) else rest) (endIf p (.refused e.type e.description) >>= S) := by
  split
  · rename_i hc
    exact gf_log (gf_throw hu (table_end (endIf_pos (hp.1 hc))))
  · rename_i hc
    have hn : ¬ p := fun h => hc (hp.2 h)
    exact gf_head (endIf_neg hn) (h hn)

theorem gf_require {name : GoStr} {f : GoStr → GrantM α} {S : Unit → Table α}
    (h : r.formValue name ≠ [] → GF (f (r.formValue name)) (S ())) :
    GF (Grant.needParam gt c r name >>= f) (require r name >>= S) := by
  by_cases hn : r.formValue name = []
  · unfold Grant.needParam
    dsimp only
    rw [if_pos hn]
    exact gf_log (gf_throw ⟨rfl, rfl⟩ (table_end (endIf_pos hn)))
  · rw [needParam_eq hn]
    exact gf_head (endIf_neg hn) (h hn)

theorem gf_mono {p : GrantM α} {R R' : Table α} (h : GF p R) (hs : ∀ c res, R c res → R' c res) : GF p R' := by
  intro t o hr
  obtain ⟨k1, k2, k3⟩ := h t o hr
  exact ⟨fun a ha => hs _ _ (k1 a ha), fun e he => ⟨(k2 e he).1, hs _ _ (k2 e he).2⟩, fun hp => hs _ _ (k3 hp)⟩

/-- The result of a grant, as the response it becomes. -/
def yieldResponse (y : Yield) : Response := { Grant.mkResponse y.1 y.2.1 with idToken := y.2.2 }

/-- A grant function that follows a table whose results become responses. -/
def GY (p : GrantM Response) (R : Table Yield) : Prop := GF p (R >>= fun y => pure (yieldResponse y))

theorem bind_assoc_table {R : Table α} {S : α → Table β} {T : β → Table γ} {c res} :
    (R >>= S >>= T) c res ↔ (R >>= fun a => S a >>= T) c res := by
  constructor
  · rintro (⟨e, rfl, (⟨e, he, h⟩ | ⟨c1, c2, x, rfl, h1, h2⟩)⟩ | ⟨c1, c2, x, rfl, (⟨e, he, h⟩ | ⟨c3, c4, y, rfl, h3, h4⟩), h2⟩)
    · cases he; exact table_end h
    · exact table_next h1 (table_end h2)
    · cases he
    · rw [List.append_assoc]; exact table_next h3 (table_next h4 h2)
  · rintro (⟨e, rfl, h⟩ | ⟨c1, c2, x, rfl, h1, (⟨e, rfl, h⟩ | ⟨c3, c4, y, rfl, h3, h4⟩)⟩)
    · exact table_end (table_end h)
    · exact table_end (table_next h1 h)
    · rw [← List.append_assoc]; exact table_next (table_next h1 h3) h4

theorem table_assoc {R : Table α} {S : α → Table β} {T : β → Table γ} : (R >>= S >>= T) = (R >>= fun a => S a >>= T) := by
  funext c res
  exact propext bind_assoc_table

theorem table_pure_bind {a : α} {S : α → Table β} : (pure a >>= S) = S a := by
  funext c res
  refine propext ⟨?_, fun h => table_next (c := []) table_pure h⟩
  rintro (⟨e, rfl, h⟩ | ⟨c1, c2, x, rfl, ⟨rfl, h⟩, h2⟩)
  · cases h.2
  · cases h; exact h2

/-! ## Direct grants -/

theorem gf_checkScope {f : Unit → GrantM α} {S : Unit → Table α} (h : GF (f ()) (S ())) :
    GF (Grant.checkScope gt c (r.formValue b!"scope") >>= f) (mayAskScope r c >>= S) := by
  unfold Grant.checkScope mayAskScope
  split
  · rename_i hc
    exact gf_log (gf_throw ⟨rfl, rfl⟩ (table_end (endIf_pos hc)))
  · rename_i hc
    exact gf_head (endIf_neg hc) h

theorem gy_issue {user : Int64} : GY (Grant.issue gt c user (r.formValue b!"scope")) (newToken r c user) := by
  unfold GY Grant.issue newToken
  simp only [table_assoc, table_pure_bind]
  refine gf_obtain (q := .createOrUpdateAuthInfo _ _ _) (value := id) (by rfl) (by rfl) (by rfl) fun info => ?_
  refine gf_obtain (q := .createOAuthToken _ _) (value := id) (by rfl) (by rfl) (by rfl) fun tk => ?_
  exact gf_pure

theorem gy_password : GY (Grant.password r c now) (passwordGrant r c) := by
  unfold GY Grant.password passwordGrant
  simp only [table_assoc]
  refine gf_require fun h1 => gf_require fun h2 => gf_checkScope ?_
  exact gf_obtainErr (q := .findUserId _ _) (err := fun x => x.2) (val := fun x => x.1) rfl rfl rfl fun x => gy_issue

theorem gy_client : GY (Grant.clientCredentials r c now) (clientGrant r c) := by
  unfold GY Grant.clientCredentials clientGrant
  simp only [table_assoc]
  refine gf_endIf (by rw [Int64.lt_iff_toInt_lt]; rfl) ⟨rfl, rfl⟩ fun h => gf_checkScope gy_issue

theorem gy_refresh : GY (Grant.refreshToken r c now) (refreshGrant r c now) := by
  unfold GY Grant.refreshToken refreshGrant
  simp only [table_assoc, table_pure_bind]
  refine gf_require fun h1 => ?_
  refine gf_obtain (q := .findOAuthTokenByRefreshToken _) (value := id) (by rfl) (by rfl) (by rfl) fun old => ?_
  refine gf_endIf ?_ ⟨rfl, rfl⟩ fun h2 => ?_
  · rw [Int64.add_comm]
  refine gf_obtain (q := .findActiveAuthInfoById _) (value := id) (by rfl) (by rfl) (by rfl) fun info => ?_
  refine gf_endIf Iff.rfl ⟨rfl, rfl⟩ fun h3 => ?_
  refine gf_endIf ?_ ⟨rfl, rfl⟩ fun h4 => ?_
  · rw [← Bool.not_eq_true]
    exact not_congr scope_hasWord
  refine gf_obtain (q := .refreshAccessToken _ _) (value := id) (by rfl) (by rfl) (by rfl) fun tk => ?_
  exact gf_pure

/-! ## The code grant -/

theorem gy_attach {info : AuthInfo} {sess : AuthSession} {tk : OAuthToken} :
    GF (Grant.attachIdToken lib c info sess now (Grant.mkResponse tk info.scope))
      (codeIdToken lib c info sess now >>= fun idt => pure (yieldResponse (tk, info.scope, idt))) := by
  unfold Grant.attachIdToken
  dsimp only
  split
  · rename_i ho
    have ho : HasWord info.scope b!"openid" := scope_hasWord.1 ho
    refine gf_log ?_
    intro t o hr
    replace hr := runs_gask_bind.1 hr
    obtain ⟨iss, t', rfl, hr'⟩ := hr
    rw [interactions_cons rfl]
    split at hr'
    · rename_i hg
      replace hr' := runs_glog_bind.1 hr'
      obtain ⟨t'', rfl, rfl, rfl⟩ := hr'
      have hk : ¬ KeyFits lib c.idTokenAlg c.idTokenKey := by
        have := rawGen_none (lib := lib) |>.1 hg
        exact this
      refine ⟨by rintro _ ⟨⟩, ?_, by rintro ⟨⟩⟩
      rintro _ ⟨⟩
      exact ⟨⟨rfl, rfl⟩, table_end (.inr ⟨ho, iss, rfl, .inl ⟨hk, rfl⟩⟩)⟩
    · rename_i idt hg
      obtain ⟨rfl, rfl⟩ := runs_xpure hr'
      have hk : KeyFits lib c.idTokenAlg c.idTokenKey := by
        refine Classical.byContradiction fun h => ?_
        unfold IdToken.gen at hg
        rw [rawGen_none.2 h] at hg
        cases hg
      obtain ⟨claims, h1, h2⟩ := gen_signed hg
      refine ⟨?_, by rintro _ ⟨⟩, by rintro ⟨⟩⟩
      rintro _ ⟨⟩
      have h0 : codeIdToken lib c info sess now [⟨.issuer, iss⟩] (.inl idt) :=
        .inr ⟨ho, iss, rfl, .inr ⟨hk, idt, claims, rfl, h1, h2⟩⟩
      exact table_next h0 table_pure
  · rename_i ho
    have ho : ¬ HasWord info.scope b!"openid" := fun h => ho (scope_hasWord.2 h)
    have h0 : codeIdToken lib c info sess now [] (.inl []) := .inl ⟨ho, rfl, rfl⟩
    exact gf_head h0 gf_pure

theorem verify_fits {v : Pkce.Verifier} {cv : GoStr} (h : Pkce.findVerifierByMethod (r.formValue b!"code_challenge_method") = some v) :
    v.verify lib (r.formValue b!"code_challenge") cv = true ↔ ChallengeFits lib r cv := by
  unfold Pkce.findVerifierByMethod at h
  unfold ChallengeFits
  split at h
  · rename_i hm
    cases h
    rw [hm]
    simp [Pkce.Verifier.verify, Pkce.plain]
  · split at h
    · rename_i hm
      cases h
      rw [hm]
      simp only [Pkce.Verifier.verify, beq_iff_eq]
      constructor
      · intro h; exact .inr ⟨rfl, by rw [← h, Pkce.s256Encode, C52_is_base64url]⟩
      · rintro (⟨h, -⟩ | ⟨-, h⟩)
        · exact absurd h (by decide)
        · rw [h, Pkce.s256Encode, C52_is_base64url]
    · cases h

theorem findVerifier_none {m : GoStr} : Pkce.findVerifierByMethod m = none ↔ m ∉ [b!"plain", b!"S256"] := by
  unfold Pkce.findVerifierByMethod Pkce.plain Pkce.s256
  split
  · rename_i h; simp [h]
  · split
    · rename_i h; simp [h]
    · rename_i h1 h2; simp [h1, h2]

theorem gf_checkPkce {sess : AuthSession} {f : Unit → GrantM α} {S : Table α} (h : GF (f ()) S) :
    GF (Grant.checkPkce lib r c sess >>= f) (do
      endIf (sess.codeVerifier ≠ [] ∧ r.formValue b!"code_challenge_method" = [])
        (.refused .invalidRequest b!"missing 'code_challenge_method' parameter")
      endIf (sess.codeVerifier ≠ [] ∧ r.formValue b!"code_challenge" = [])
        (.refused .invalidRequest b!"missing 'code_challenge' parameter")
      endIf (sess.codeVerifier ≠ [] ∧ r.formValue b!"code_challenge_method" ∉ [b!"plain", b!"S256"])
        (.refused .invalidRequest
          (b!"unsupported 'code_challenge_method': '" ++ r.formValue b!"code_challenge_method" ++ b!"'"))
      endIf (sess.codeVerifier ≠ [] ∧ ¬ ChallengeFits lib r sess.codeVerifier) (.refused .invalidGrant
        (b!"invalid 'code_challenge': '" ++ r.formValue b!"code_challenge" ++ b!"'"))
      S) := by
  unfold Grant.checkPkce
  dsimp only
  by_cases hv : sess.codeVerifier = []
  · rw [if_pos hv, xrun_pure_bind]
    have hn : ∀ p, ¬ (sess.codeVerifier ≠ [] ∧ p) := fun p h => h.1 hv
    exact gf_head (endIf_neg (hn _)) (gf_head (endIf_neg (hn _)) (gf_head (endIf_neg (hn _)) (gf_head (endIf_neg (hn _)) h)))
  · rw [if_neg hv]
    by_cases h1 : r.formValue b!"code_challenge_method" = []
    · unfold Grant.needParam
      dsimp only
      rw [if_pos h1]
      exact gf_log (gf_throw ⟨rfl, rfl⟩ (table_end (endIf_pos ⟨hv, h1⟩)))
    rw [needParam_eq h1]
    refine gf_head (endIf_neg fun h => h1 h.2) ?_
    by_cases h2 : r.formValue b!"code_challenge" = []
    · unfold Grant.needParam
      dsimp only
      rw [if_pos h2]
      exact gf_log (gf_throw ⟨rfl, rfl⟩ (table_end (endIf_pos ⟨hv, h2⟩)))
    rw [needParam_eq h2]
    refine gf_head (endIf_neg fun h => h2 h.2) ?_
    simp only [xrun_pure_bind]
    cases hm : Pkce.findVerifierByMethod (r.formValue b!"code_challenge_method") with
    | none => exact gf_log (gf_throw ⟨rfl, rfl⟩ (table_end (endIf_pos ⟨hv, findVerifier_none.1 hm⟩)))
    | some v =>
      refine gf_head (endIf_neg fun h => ?_) ?_
      · rw [findVerifier_none.2 h.2] at hm; cases hm
      · dsimp only
        split
        · rename_i hf
          exact gf_head (endIf_neg fun h => h.2 ((verify_fits hm).1 hf)) h
        · rename_i hf
          exact gf_log (gf_throw ⟨rfl, rfl⟩ (table_end (endIf_pos ⟨hv, fun h => hf ((verify_fits hm).2 h)⟩)))

theorem gy_code : GY (Grant.authorizationCode lib r c now) (codeGrant lib r c now) := by
  unfold GY Grant.authorizationCode codeGrant
  simp only [table_assoc, table_pure_bind]
  refine gf_require fun h1 => gf_require fun h2 => ?_
  refine gf_obtain (q := .findAuthSessionByCode _) (value := id) (by rfl) (by rfl) (by rfl) fun sess => ?_
  refine gf_obtain (q := .findActiveAuthInfoById _) (value := id) (by rfl) (by rfl) (by rfl) fun info => ?_
  refine gf_endIf Iff.rfl ⟨rfl, rfl⟩ fun h3 => ?_
  refine gf_endIf Iff.rfl ⟨rfl, rfl⟩ fun h4 => ?_
  refine gf_checkPkce ?_
  refine gf_obtain (q := .createOAuthToken _ _) (value := id) (by rfl) (by rfl) (by rfl) fun tk => ?_
  refine gf_obtainErr (q := .disableSession _) (err := id) (val := fun _ => ()) rfl rfl rfl fun _ => ?_
  exact gy_attach

end Goidc
