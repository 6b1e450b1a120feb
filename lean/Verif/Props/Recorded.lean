import Verif.Spec.Recorded
import Verif.Props.OnceInside
import Verif.Props.Confine

/-! # C126, C127: which assertions are recorded -/

namespace Goidc.Props

open Spec TokenEndpoint

variable {ths : Nat → Thread} {g a b : List (Nat × Event)} {k : Nat}

/-- C126: in every deployment and interleaving, `RecordAssertionClaims` is only called by token requests of that
client, which carry an assertion with these claims made with a key of that client, and in its time. -/
theorem C126_holder (hth : ∀ i, Endpoint (ths i)) (hg : Interleaves ths g) {cid jti : GoStr} {iat exp : Int64} {x : Option ErrType}
    (hs : g = a ++ (k, ⟨.recordAssertionClaims cid jti iat exp, x⟩) :: b) :
    ∃ cfg lib r c, ths k = ⟨handler cfg lib r⟩ ∧ c.id = cid ∧ Authenticated cfg lib r c (callsOf k a) ∧
      MadeByHolder cfg lib r c (callsOf k a) jti iat exp := by
  have h := global_key hth hg hs rfl
  generalize hk : ths k = th at h
  cases h with
  | token ha h =>
    cases h with
    | claims _ _ _ hm => exact ⟨_, _, _, _, rfl, rfl, ha, hm⟩
  | authorize _ _ _ _ _ h => cases h
  | complete _ _ h => cases h with | complete info q hm h => cases h

/-- C126 for one request: it records nothing when no assertion in it was made with a key of a client the application
knows. -/
theorem C126_stranger {cfg : TokenCfg} {lib : Lib} {r : Req} {t : List Event} (hb : AllBuiltIn lib cfg) (ht : Steps (handler cfg lib r) t)
    (hno : ∀ sub c a tk, ⟨.findClientById sub, (some c, none)⟩ ∈ t → Asserts cfg lib r a → ¬ VerifiedAssertion lib c a tk)
    {cid jti : GoStr} {iat exp : Int64} {x : Option ErrType} : ⟨.recordAssertionClaims cid jti iat exp, x⟩ ∉ t := by
  intro hm
  obtain ⟨pre, post, rfl⟩ := List.append_of_mem hm
  obtain ⟨c, ha, h⟩ := token_key hb ht rfl
  have hf : ∃ sub, ⟨.findClientById sub, (some c, none)⟩ ∈ pre := by
    rcases ha with ⟨sub, _, _, _, h, _⟩ | ⟨_, _, _, sub, _, _, _, h⟩ <;> exact ⟨sub, h⟩
  obtain ⟨sub, hf⟩ := hf
  cases h with
  | claims _ _ _ hj =>
    obtain ⟨a, tk, _, has, hv, _⟩ := hj
    exact hno sub c a tk (by simp [hf]) has hv

/-- The calls that record assertions. -/
def recordsOf (t : List Event) : List (GoStr × GoStr × Int64 × Int64) :=
  t.filterMap fun e => match e.q with
    | .recordAssertionClaims c j i x => some (c, j, i, x)
    | _ => none

theorem mem_recordsOf {t : List Event} {c j : GoStr} {i x : Int64} (h : (c, j, i, x) ∈ recordsOf t) :
    ∃ y, ⟨.recordAssertionClaims c j i x, y⟩ ∈ t := by
  obtain ⟨⟨q, y⟩, hm, h⟩ := List.mem_filterMap.1 h
  cases q <;> simp only [reduceCtorEq] at h
  case recordAssertionClaims =>
    cases h
    exact ⟨y, hm⟩

/-- The issuers the application named. -/
def issuersOf (t : List Event) : List GoStr :=
  t.filterMap fun e => match e with
    | ⟨.issuer, x⟩ => some x
    | _ => none

theorem mem_issuersOf {t : List Event} {x : GoStr} (h : x ∈ issuersOf t) : ⟨.issuer, x⟩ ∈ t := by
  obtain ⟨⟨q, y⟩, hm, h⟩ := List.mem_filterMap.1 h
  cases q <;> simp only [reduceCtorEq] at h
  case issuer =>
    cases h
    exact hm

/-- The hypotheses of C126 are met: the sample request by assertion records its claims. -/
example : ∃ y, (⟨.recordAssertionClaims b!"client" b!"j1" (-1) 2000, y⟩ : Event) ∈
    (({} : Sample.World).run (handler Sample.tokenCfg Sample.lib (Sample.postAssertion b!"tok" Sample.ccBody))).1 :=
  mem_recordsOf (by decide +kernel)

/-! ## C127: a refused assertion leaves its id free -/

/-- C127, the part that holds: an assertion that is not signed with a key of the client, or is not in its time, or has no
`exp`, is not recorded: what a request records comes from an assertion in it that has none of these faults. -/
theorem C127_faulty_partial {cfg : TokenCfg} {lib : Lib} {r : Req} {t : List Event} (hb : AllBuiltIn lib cfg)
    (ht : Steps (handler cfg lib r) t)
    (hno : ∀ c a tk, Asserts cfg lib r a → VerifiedAssertion lib c a tk → (∀ exp, ¬ NumberClaim tk b!"exp" exp) ∨
      ∀ wall, ⟨.wallNow, wall⟩ ∈ t → ¬ NotExpired wall (tk.claim b!"exp") ∨ ¬ NotEarly wall (tk.claim b!"iat") ∨
        ¬ NotEarly wall (tk.claim b!"nbf")) {cid jti : GoStr} {iat exp : Int64} {x : Option ErrType} :
    ⟨.recordAssertionClaims cid jti iat exp, x⟩ ∉ t := by
  intro hm
  obtain ⟨pre, post, rfl⟩ := List.append_of_mem hm
  obtain ⟨c, ha, h⟩ := token_key hb ht rfl
  cases h with
  | claims _ _ _ hj =>
    obtain ⟨a, tk, wall, has, hv, hr, hw, he, hi, hn⟩ := hj
    rcases hno c a tk has hv with h | h
    · exact h _ hr.exp
    · rcases h wall (by simp [hw]) with h | h | h
      · exact h he
      · exact h hi
      · exact h hn

/-- The sample library with two tokens of one `jti`: `tok` is addressed to another server, `tok2` to this one. -/
def astrayLib : Lib :=
  { Sample.lib with
    jwtDecode := fun s => if s = b!"tok" then
        some { Sample.jwt with claims := (b!"aud", .str b!"https://other") :: Sample.jwt.claims }
      else if s = b!"tok2" then some { Sample.jwt with raw := b!"tok2" } else none
    jwtDecode_raw := by
      intro s t h
      split at h
      · rename_i hs; cases h; exact hs.symm
      · split at h
        · rename_i hs; cases h; exact hs.symm
        · cases h }

def astrayCfg : TokenCfg := { Sample.tokenCfg with handlers := [(Grant.typeClientCredentials, Grant.clientCredentials)] }

def astrayReq (a : GoStr) : Req := Sample.postAssertion a Sample.ccBody

/-- One request presents the stray assertion, the other one the right one. -/
def astrayThreads : Nat → Prog Unit
  | 1 => handler astrayCfg astrayLib (astrayReq b!"tok")
  | 2 => handler astrayCfg astrayLib (astrayReq b!"tok2")
  | _ => .ret ()

theorem astray_builtIn (lib : Lib) : AllBuiltIn lib astrayCfg := by
  intro gt h hl
  unfold lookupHandler at hl
  split at hl
  · rename_i kv hf
    have := List.mem_of_find?_eq_some hf
    simp only [astrayCfg, List.mem_singleton] at this
    subst this
    cases hl
    exact .clientCredentials
  · cases hl

/-- C127 does not hold: what a request records need not be an assertion for this server (the claims are recorded before the
audience is compared). -/
theorem C127_false : ¬ (∀ (cfg : TokenCfg) (lib : Lib) (r : Req) (t : List Event) (o : Outcome Unit) (cid jti : GoStr) (iat exp : Int64)
    (x : Option ErrType) (iss : GoStr), AllBuiltIn lib cfg → Runs (handler cfg lib r) t o → ⟨.recordAssertionClaims cid jti iat exp, x⟩ ∈ t →
    ⟨.issuer, iss⟩ ∈ t → ∃ c a tk, Asserts cfg lib r a ∧ VerifiedAssertion lib c a tk ∧ tk.claimStr b!"aud" = some iss) := by
  intro H
  have hiss : (⟨.issuer, b!"https://issuer"⟩ : Event) ∈ (({} : Sample.World).run (handler astrayCfg astrayLib (astrayReq b!"tok"))).1 := by
    exact mem_issuersOf (by decide +kernel)
  obtain ⟨y, hy⟩ := mem_recordsOf (t := (({} : Sample.World).run (handler astrayCfg astrayLib (astrayReq b!"tok"))).1)
    (c := b!"client") (j := b!"j1") (i := -1) (x := 2000) (by decide +kernel)
  obtain ⟨c, a, tk, ha, hv, haud⟩ := H _ _ _ _ _ _ _ _ _ _ _ (astray_builtIn _)
    (({} : Sample.World).runs (handler astrayCfg astrayLib (astrayReq b!"tok"))) hy hiss
  rcases ha with ⟨_, rfl, _, _⟩ | ⟨_, rfl, hne⟩
  · have : tk = { Sample.jwt with claims := (b!"aud", .str b!"https://other") :: Sample.jwt.claims } :=
      (Option.some.inj hv.1).symm
    subst this
    exact absurd haud (by decide +kernel)
  · exact hne (by decide +kernel)

/-- What it means: with a store that records, the right assertion is refused after the stray one, and granted
without it. -/
example : RecordsOnce (schedule recordingDet (List.replicate 20 1 ++ List.replicate 20 2) astrayThreads (emptyStore, [])).1 ∧
    (∃ resp, (1, wrote resp) ∈ (schedule recordingDet (List.replicate 20 1 ++ List.replicate 20 2) astrayThreads (emptyStore, [])).1 ∧
      resp.status = 400) ∧
    (∃ resp, (2, wrote resp) ∈ (schedule recordingDet (List.replicate 20 1 ++ List.replicate 20 2) astrayThreads (emptyStore, [])).1 ∧
      resp.status = 400) ∧
    (∃ resp, (2, wrote resp) ∈ (schedule recordingDet (List.replicate 20 2) astrayThreads (emptyStore, [])).1 ∧ resp.status = 200) :=
  ⟨recordingDet_once _ _, answered_mem (by decide +kernel), answered_mem (by decide +kernel), answered_mem (by decide +kernel)⟩

/-- The hypotheses of `C126_stranger` are met by a request with an assertion that somebody else signed. -/
example : (∃ pre resp, Steps (handler astrayCfg { astrayLib with sigOk := fun _ _ _ => false } (astrayReq b!"tok2")) (pre ++ [wrote resp]) ∧
      resp.status = 400) ∧
    ∀ c a tk, ¬ VerifiedAssertion { astrayLib with sigOk := fun _ _ _ => false } c a tk := by
  refine ⟨Sample.World.steps (w := {}) (by decide +kernel), ?_⟩
  rintro c a tk ⟨_, k, _, h⟩
  cases k <;> simp [SignatureOk] at h

/-- The hypotheses of `C127_faulty_partial` are met by a request with an assertion that has expired. -/
example : ∃ t o, Runs (handler astrayCfg astrayLib (astrayReq b!"tok2")) t o ∧ (∃ wall, ⟨.wallNow, wall⟩ ∈ t) ∧
    ∀ wall, ⟨.wallNow, wall⟩ ∈ t → ¬ NotExpired wall (Sample.jwt.claim b!"exp") := by
  refine ⟨_, _, ({ now := 3000 } : Sample.World).runs _, ⟨3000, ?_⟩, fun wall hw => ?_⟩
  · have h : ∃ e ∈ (({ now := 3000 } : Sample.World).run (handler astrayCfg astrayLib (astrayReq b!"tok2"))).1,
        (match e.q with | .wallNow => true | _ => false) = true := by
      rw [← List.any_eq_true]
      decide +kernel
    obtain ⟨⟨q, x⟩, hm, h⟩ := h
    cases q <;> simp only [Bool.false_eq_true] at h
    have := exec_answers _ _ _ hm
    simp only at this
    subst this
    exact hm
  · have : wall = 3000 := exec_answers _ _ _ hw
    subst this
    intro h
    obtain ⟨n, hn, hc⟩ := h (.float 2000) rfl
    have : n = 2000 := by rcases hn with h | h | ⟨h, _⟩ <;> cases h; rfl
    subst this
    revert hc; decide

end Goidc.Props
