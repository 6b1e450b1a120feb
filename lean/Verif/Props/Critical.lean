import Verif.Spec.Critical
import Verif.Props.Jws
import Verif.Lemmas.JsonEncode

/-! # C122: extensions a token depends on -/

namespace Goidc.Props

open Spec TokenEndpoint Json

variable {cfg : TokenCfg} {r : Req} {t : List Event} {o : Outcome Unit} {p : Prims}

/-- The members of the sample header: an extension `x` is critical. -/
def criticalFields : List Field :=
  [.ofStr b!"alg" b!"HS256", .ofStr b!"kid" b!"k1",
   ⟨jsonString b!"crit", rawOf b!"crit", 91 :: (jsonString b!"x" ++ [93]), .arr [.str (rawOf b!"x")]⟩]

def criticalPayload : List Field :=
  [.ofStr b!"sub" b!"client", .ofStr b!"aud" b!"https://issuer", .ofInt b!"exp" 2000]

def objectText (l : List Field) : GoStr := b!"{" ++ join 44 (l.map fun x => x.keyText ++ 58 :: x.text) ++ b!"}"

def objectMembers (l : List Field) : List (GoStr × Spec.JVal) := l.map fun x => (Json.unquote x.key, x.value.value)

/-- The text of an object is a JSON text with its members. -/
theorem objectText_json (l : List Field) (hl : l ≠ []) (h : ∀ x ∈ l, RStr x.keyText x.key ∧ RValue x.text x.value) :
    JsonText (objectText l) (.obj (objectMembers l)) := by
  have := jsonText_of_raw (robj_join l hl h)
  have e : (Json.obj (l.map fun x => (x.key, x.value))).value = .obj (objectMembers l) := by
    show Spec.JVal.obj (Json.membersValue _) = _
    rw [membersValue_map, List.map_map]
    rfl
  rw [e] at this
  exact this

def criticalSigned : GoStr := Jws.encodeSegment (objectText criticalFields) ++ 46 :: Jws.encodeSegment (objectText criticalPayload)

def criticalSig : GoStr := Crypto.prims.signature b!"HS256" b!"key" criticalSigned

/-- An assertion whose header lists an extension as critical. -/
def criticalTok : GoStr := criticalSigned ++ 46 :: Jws.encodeSegment criticalSig

theorem critical_jws : IsJws criticalTok (objectMembers criticalFields) (objectMembers criticalPayload) criticalSigned criticalSig := by
  refine ⟨objectText criticalFields, objectText criticalPayload, objectText_json _ (by simp [criticalFields]) ?_,
    objectText_json _ (by simp [criticalPayload]) ?_, ?_, ?_⟩
  · intro x hx
    simp only [criticalFields, List.mem_cons, List.not_mem_nil, or_false] at hx
    rcases hx with rfl | rfl | rfl
    · exact field_ofStr _ _
    · exact field_ofStr _ _
    · refine ⟨rstr_jsonString _, .arr ?_⟩
      have := RElems.one ws_nil (.str (rstr_jsonString b!"x")) ws_nil
      simpa using this
  · intro x hx
    simp only [criticalPayload, List.mem_cons, List.not_mem_nil, or_false] at hx
    rcases hx with rfl | rfl | rfl
    · exact field_ofStr _ _
    · exact field_ofStr _ _
    · exact field_ofInt _ _
  · unfold criticalSigned
    rw [Jws.encodeSegment_spec, Jws.encodeSegment_spec]
  · unfold criticalTok
    rw [Jws.encodeSegment_spec]

set_option maxRecDepth 20000 in
theorem critical_last : LastMember (objectMembers criticalFields) b!"crit" (.arr [.str b!"x"]) :=
  ⟨(objectMembers criticalFields).take 2, [], rfl, by simp⟩

/-- The request that presents it. -/
def criticalPost : Req := Sample.postAssertion criticalTok Sample.ccBody

set_option maxRecDepth 20000 in
/-- C122 fails in full: a client is authenticated, and a token granted, by an assertion that lists an extension as critical. -/
theorem C122_false :
    ∃ (cfg : TokenCfg) (r : Req) (t : List Event) (resp : HttpResp) (ca : GoStr) (header payload : List (GoStr × Spec.JVal))
      (signed sig : GoStr), AllBuiltIn (Jws.lib Crypto.prims) cfg ∧ (∀ cid sec b, ¬ Presented cfg.acceptance r cid sec b) ∧
      PresentedAssertion r ca ∧ IsJws ca header payload signed sig ∧ Critical header ∧
      Steps (handler cfg (Jws.lib Crypto.prims) r) (t ++ [wrote resp]) ∧ resp.status = 200 := by
  obtain ⟨pre, resp, h, hs⟩ := Sample.World.steps (w := {})
    (p := handler jwsCfg (Jws.lib Crypto.prims) criticalPost) (n := 200) (by decide +kernel)
  refine ⟨jwsCfg, criticalPost, pre, resp, criticalTok, objectMembers criticalFields,
    objectMembers criticalPayload, criticalSigned, criticalSig, ?_, findClientCredential_none.1 (by decide +kernel),
    ⟨by decide +kernel, by decide +kernel, by decide +kernel⟩, critical_jws,
    ⟨_, b!"x", critical_last, List.mem_singleton.2 rfl⟩, ?_, hs⟩
  case refine_2 => exact h
  intro gt hf hl
  obtain ⟨x, hx, rfl⟩ : ∃ x ∈ jwsCfg.handlers, x.2 = hf := by
    unfold lookupHandler at hl
    cases hfd : jwsCfg.handlers.find? (fun kv => kv.1 == gt) with
    | none => rw [hfd] at hl; cases hl
    | some x =>
      rw [hfd] at hl
      exact ⟨x, List.mem_of_find?_eq_some hfd, Option.some.inj hl⟩
  simp only [jwsCfg, List.mem_cons, List.not_mem_nil, or_false] at hx
  rcases hx with rfl | rfl | rfl
  · exact .authorizationCode
  · exact .clientCredentials
  · exact .jwt

/-- C122, how general this is: no assertion that conforms otherwise is refused for the extensions it lists. -/
theorem C122_client {hf : GrantFunc} {c : Client} {alg kid sub aud tok signed sig : GoStr} {key : Key} {exp now : Int64}
    {header payload : List (GoStr × Spec.JVal)} (h : Runs (handler cfg (Jws.lib p) r) t o)
    (hm : r.method = b!"POST") (hgt : r.formValue b!"grant_type" ≠ []) (hreg : Registered cfg r hf)
    (hno : ∀ cid sec b, ¬ Presented cfg.acceptance r cid sec b) (hacc : cfg.acceptClientAssertion = true) (hp : PresentedAssertion r tok)
    (_ : Critical header) (hj : IsJws tok header payload signed sig) (hnh : NumbersFit p header) (hnp : NumbersFit p payload)
    (hn : Names header alg kid) (hk : c.assertionKey alg kid = some key) (hv : Verified p alg signed sig key)
    (hsub : LastMember payload b!"sub" (.str sub)) (haud : LastMember payload b!"aud" (.str aud))
    (hexp : TimeMember p payload b!"exp" exp) (hle : now.toInt ≤ exp.toInt)
    (hiat : MissingOrPast p payload b!"iat" now) (hnbf : MissingOrPast p payload b!"nbf" now) (hne : aud ≠ [])
    (hf' : Answered t (.findClientById sub) (some c, none)) (hw : Answered t .wallNow now) (hi : Answered t .issuer aud)
    (hr : ∀ jti iat exp, Answered t (.recordAssertionClaims c.id jti iat exp) none) :
    ∃ t1 n t2 t3 o', t = t1 ++ ⟨.now, n⟩ :: t2 ++ t3 ∧ Authenticated cfg (Jws.lib p) r c t1 ∧ Runs (hf r c n).run t2 o' :=
  C97_client h hm hgt hreg hno hacc hp
    ⟨header, payload, signed, sig, alg, kid, key, exp, hj, hnh, hnp, hn, hk, hv, hsub, haud, hexp, hle, hiat, hnbf⟩ hne hf' hw hi hr

/-- The JWT of C122 as a grant. -/
example : ({} : Sample.World).status (handler jwsCfg (Jws.lib Crypto.prims)
    (Sample.post [(b!"grant_type", Grant.typeJWT), (b!"assertion", criticalTok), (b!"scope", b!"openid")])) = some 200 := by
  decide +kernel

end Goidc.Props
