import Verif.Spec.Ours
import Verif.Props.Claims
import Verif.Props.HintJws

/-! # C124: whose ID token a hint is -/

namespace Goidc.Props

open Spec AuthzEndpoint

variable {lib : Lib} {r : Req} {d : GoStr → Option JwtToken} {hd : ∀ s t, d s = some t → t.raw = s}

theorem parse_hint {α σ : Type} {s : GoStr} {s0 : σ} {kf : JwtToken → Prog (Jwt.KeyRes × σ)}
    {k : Option JwtToken × Option Jwt.VErr × σ → Prog α} (h : SameHint (lib.jwtDecode s) (d s))
    (hkf : ∀ t t', kf t' = kf t)
    (hk : ∀ t t', HintAgree t t' → ∀ e x, k (some t', e, x) = k (some t, e, x)) :
    (Jwt.parse (saying lib d hd) s s0 kf >>= k) = (Jwt.parse lib s s0 kf >>= k) := by
  unfold Jwt.parse
  rw [show (saying lib d hd).jwtDecode s = d s from rfl]
  cases h1 : lib.jwtDecode s with
  | none =>
    rw [h1] at h
    cases h2 : d s with
    | none => rfl
    | some t' => rw [h2] at h; exact h.elim
  | some t =>
    rw [h1] at h
    cases h2 : d s with
    | none => rw [h2] at h; exact h.elim
    | some t' =>
      rw [h2] at h
      have h : HintAgree t t' := h
      have hv : ∀ key, Jwt.verifies (saying lib d hd) (t'.alg.getD []) s key = Jwt.verifies lib (t.alg.getD []) s key := by
        intro key
        rw [h.alg]
        cases key <;> rfl
      dsimp only
      rw [h.alg]
      cases t.alg.bind Jwt.family with
      | none => exact hk t t' h _ _
      | some f =>
        dsimp only
        rw [hkf t t', bind_assoc, bind_assoc]
        refine bind_congr fun x => ?_
        obtain ⟨kr, s1⟩ := x
        cases kr with
        | oauthErr e => exact hk t t' h _ _
        | err => exact hk t t' h _ _
        | key key =>
          dsimp only
          rw [bind_assoc, bind_assoc]
          refine bind_congr fun now => ?_
          rw [h.claims b!"exp" (by decide +kernel), h.claims b!"iat" (by decide +kernel), h.claims b!"nbf" (by decide +kernel), ← h.alg, hv,
            h.alg]
          exact hk t t' h _ _

theorem checkHint_same (h : ∀ s, SameHint (lib.jwtDecode s) (d s)) {c : Client} {q : Request} :
    checkIdTokenHint (saying lib d hd) r c q = checkIdTokenHint lib r c q := by
  unfold checkIdTokenHint
  dsimp only
  split
  · rfl
  · have e1 : ∀ (k : Option JwtToken × Option Jwt.VErr × Unit → AuthM GoStr) (p : Prog (Option JwtToken × Option Jwt.VErr × Unit)),
        (ExceptT.lift p >>= k : AuthM GoStr).run = p >>= fun x => (k x).run := by
      intro k p
      rw [xrun_bind, show (ExceptT.lift p : AuthM _).run = p >>= fun a => pure (Except.ok a) from rfl]
      exact bind_assoc p _ _
    refine ExceptT.ext ?_
    rw [e1, e1]
    refine parse_hint (h _) (fun t t' => rfl) fun t t' ht e x => ?_
    cases e with
    | some e => rfl
    | none =>
      dsimp only
      unfold JwtToken.claimStr
      rw [ht.claims b!"exp" (by decide +kernel), ht.claims b!"sub" (by decide +kernel)]

/-- C124, how general this is: of a hint that verifies only the subject and the times count.  Had all tokens another issuer,
audience, key id and whatever other claims, exactly the same would happen on every authorization request. -/
theorem C124_unread {policy : Policy} {t : List Event} {o : Outcome Bool} (h : ∀ s, SameHint (lib.jwtDecode s) (d s)) :
    Runs (handleRequest policy lib r) t o ↔ Runs (handleRequest policy (saying lib d hd) r) t o := by
  have h1 : ∀ {c : Client} {q : Request}, promptNone policy (saying lib d hd) r c q = promptNone policy lib r c q := by
    intro c q
    unfold promptNone
    rw [checkHint_same h]
    rfl
  have : handleRequestM policy (saying lib d hd) r = handleRequestM policy lib r := by
    unfold handleRequestM
    simp only [h1]
    rfl
  unfold handleRequest
  rw [this]

/-! ## A token of somebody else -/

/-- A token made by another issuer for another audience with another algorithm, under the same key. -/
def foreignTok : GoStr :=
  (IdToken.gen (Jws.lib Crypto.prims) b!"HS512" (some (.bytes b!"key")) b!"k9" b!"https://other" b!"other" b!"subject" [] 700
    900 900).getD []

def foreignGet : Req := authGet [(b!"response_type", b!"code id_token"), (b!"scope", b!"openid"), (b!"prompt", b!"none"),
  (b!"nonce", b!"n"), (b!"id_token_hint", foreignTok)]

theorem foreign_decode : ∃ tk, (Jws.lib Crypto.prims).jwtDecode (foreignGet.formValue b!"id_token_hint") = some tk ∧
    tk.claim b!"iss" = some (.str b!"https://other") ∧ tk.claim b!"aud" = some (.str b!"other") ∧ tk.alg = some b!"HS512" := by
  have h : (match (Jws.lib Crypto.prims).jwtDecode (foreignGet.formValue b!"id_token_hint") with
    | some tk => decide (tk.claim b!"iss" = some (.str b!"https://other") ∧ tk.claim b!"aud" = some (.str b!"other") ∧
        tk.alg = some b!"HS512")
    | none => false) = true := by decide +kernel
  split at h
  · rename_i tk e
    exact ⟨tk, e, of_decide_eq_true h⟩
  · cases h

/-- The run that succeeds with it. -/
theorem foreign_succeeds : ∃ pre resp, Runs (handleRequest .default (Jws.lib Crypto.prims) foreignGet) (pre ++ [wrote resp]) (.ok true) ∧
    (∀ c, FoundClient foreignGet c pre → c = { Sample.client with nonePromptPolicy := .allowIfIdTokenHintMatched }) ∧
    FoundClient foreignGet { Sample.client with nonePromptPolicy := .allowIfIdTokenHintMatched } pre ∧
    ⟨.issuer, b!"https://issuer"⟩ ∈ pre := by
  have hans := exec_answers hintWorld.answer (handleRequest .default (Jws.lib Crypto.prims) foreignGet)
  have hr := hintWorld.runs (handleRequest .default (Jws.lib Crypto.prims) foreignGet)
  have htr : (hintWorld.run (handleRequest .default (Jws.lib Crypto.prims) foreignGet)).2.1 = .ok true :=
    returnedTrue_ok (by decide +kernel)
  have hany : (hintWorld.run (handleRequest .default (Jws.lib Crypto.prims) foreignGet)).1.any
      (fun e => match e.q with | .issuer => true | _ => false) = true := by decide +kernel
  have hfind : (hintWorld.run (handleRequest .default (Jws.lib Crypto.prims) foreignGet)).1.any
      (fun e => match e.q with | .findClientById c => c == foreignGet.formValue b!"client_id" | _ => false) = true := by decide +kernel
  rw [htr] at hr
  cases hl : lastWrite (hintWorld.run (handleRequest .default (Jws.lib Crypto.prims) foreignGet)).1 with
  | none => exact absurd hl (by decide +kernel)
  | some resp =>
    obtain ⟨pre, hp⟩ := lastWrite_eq hl
    rw [hp] at hr hany hfind
    change ∀ e ∈ (hintWorld.run (handleRequest .default (Jws.lib Crypto.prims) foreignGet)).1, e.r = hintWorld.answer e.q at hans
    rw [hp] at hans
    refine ⟨pre, resp, hr, ?_, ?_, ?_⟩
    · rintro c ⟨e, _, hc⟩
      have := hans _ (List.mem_append_left _ hc)
      obtain ⟨h1, _⟩ := Prod.mk.inj this
      exact Option.some.inj h1
    · obtain ⟨⟨q, x⟩, he, hq⟩ := List.any_eq_true.1 hfind
      split at hq
      · rename_i h'
        have hx := hans _ he
        dsimp only at h'
        subst h'
        rcases List.mem_append.1 he with he | he
        · rw [beq_iff_eq] at hq
          subst hq
          have hx' : x = (some { Sample.client with nonePromptPolicy := .allowIfIdTokenHintMatched }, none) := hx
          subst hx'
          exact ⟨none, .inl rfl, he⟩
        · simp at he
      · cases hq
    · obtain ⟨⟨q, x⟩, he, hq⟩ := List.any_eq_true.1 hany
      split at hq
      · rename_i h'
        have hx := hans _ he
        dsimp only at h'
        subst h'
        rcases List.mem_append.1 he with he | he
        · obtain rfl : x = b!"https://issuer" := hx
          exact he
        · simp at he
      · cases hq

/-- C124 is false: a hint from another issuer, for another client, signed with another algorithm than ID tokens of the client,
is accepted if it verifies under the client's key. -/
theorem C124_false : ¬ WheneverHinted OurIssuer ∧ ¬ WheneverHinted ForClient ∧ ¬ WheneverHinted SignedAsOurs := by
  obtain ⟨pre, resp, h, hc, hf, hi⟩ := foreign_succeeds
  obtain ⟨tk, h1, h2, h3, h4⟩ := foreign_decode
  have go : ∀ {P}, WheneverHinted P → P tk { Sample.client with nonePromptPolicy := .allowIfIdTokenHintMatched } pre := fun H =>
    H _ _ _ _ _ _ h (by decide +kernel) (fun c hx => by rw [hc c hx]) h1 _ hf
  refine ⟨fun H => ?_, fun H => ?_, fun H => ?_⟩
  · have := go H _ hi
    rw [h2] at this
    exact absurd this (by decide)
  · have : tk.claim b!"aud" = _ := go H
    rw [h3] at this
    exact absurd this (by decide)
  · have : tk.alg = _ := go H
    rw [h4] at this
    exact absurd this (by decide)

/-- The two readings of `C124_unread`: the claims of the foreign token and those of the client's own agree as hints. -/
example : HintAgree ⟨b!"t", some b!"HS256", some b!"k1", [(b!"iss", .str b!"https://issuer"), (b!"aud", .str b!"client"), (b!"sub", .str b!"s"), (b!"exp", .float 5)]⟩
    ⟨b!"t", some b!"HS256", none, [(b!"iss", .str b!"https://other"), (b!"aud", .str b!"other"), (b!"sub", .str b!"s"), (b!"exp", .float 5)]⟩ :=
  ⟨rfl, by decide +kernel⟩

end Goidc.Props
