import Verif.Lemmas.JsonEncode

/-! # Storing members into an authorization request -/

namespace Goidc

open Spec Json

namespace Request

/-- Decide the chain of key comparisons. -/
macro "key_step" : tactic => `(tactic| (
  conv => lhs; unfold Request.setMembers
  dsimp only
  repeat (first | rw [if_pos (by decide +kernel)] | rw [if_neg (by decide +kernel)])))

variable (r : Request) (v : Json) (m : List (GoStr × Json))

theorem set_flow : setMembers r ((rawOf b!"flow", v) :: m) =
    if (Flow.setJson r.flow v).2 then setMembers { r with flow := (Flow.setJson r.flow v).1 } m
    else { r with flow := (Flow.setJson r.flow v).1 } := by
  conv => lhs; unfold Request.setMembers
  dsimp only
  rw [if_pos (by decide +kernel)]
theorem set_clientId : setMembers r ((rawOf b!"client_id", v) :: m) =
    setMembers { r with clientId := asString r.clientId v } m := by key_step
theorem set_scope : setMembers r ((rawOf b!"scope", v) :: m) =
    setMembers { r with scope := asString r.scope v } m := by key_step
theorem set_redirectURI : setMembers r ((rawOf b!"redirect_uri", v) :: m) =
    setMembers { r with redirectURI := asString r.redirectURI v } m := by key_step
theorem set_responseMode : setMembers r ((rawOf b!"response_mode", v) :: m) =
    setMembers { r with responseMode := asString r.responseMode v } m := by key_step
theorem set_state : setMembers r ((rawOf b!"state", v) :: m) =
    setMembers { r with state := asString r.state v } m := by key_step
theorem set_codeVerifier : setMembers r ((rawOf b!"code_verifier", v) :: m) =
    setMembers { r with codeVerifier := asString r.codeVerifier v } m := by key_step
theorem set_nonce : setMembers r ((rawOf b!"nonce", v) :: m) =
    setMembers { r with nonce := asString r.nonce v } m := by key_step
theorem set_display : setMembers r ((rawOf b!"display", v) :: m) =
    setMembers { r with display := asString r.display v } m := by key_step
theorem set_prompt : setMembers r ((rawOf b!"prompt", v) :: m) =
    setMembers { r with prompt := asString r.prompt v } m := by key_step
theorem set_maxAge : setMembers r ((rawOf b!"max_age", v) :: m) =
    setMembers { r with maxAge := asInt64 r.maxAge v } m := by key_step
theorem set_uiLocale : setMembers r ((rawOf b!"ui_locale", v) :: m) =
    setMembers { r with uiLocale := asString r.uiLocale v } m := by key_step
theorem set_idTokenHint : setMembers r ((rawOf b!"id_token_hint", v) :: m) =
    setMembers { r with idTokenHint := asString r.idTokenHint v } m := by key_step
theorem set_loginHint : setMembers r ((rawOf b!"login_hint", v) :: m) =
    setMembers { r with loginHint := asString r.loginHint v } m := by key_step

end Request

namespace Flow

theorem rawOf_type (t : FlowType) : rawOf (typeString t) = typeString t := by
  cases t <;> decide +kernel

theorem marshal_eq (t : FlowType) : marshalJSON t = jsonString (typeString t) := by
  cases t <;> decide +kernel

/-- The flow value as parsed. -/
def toJson : Option Flow → Json
  | none => .null
  | some f => .obj [(rawOf b!"type", .str (typeString f.type)),
      (rawOf b!"require_access_token", .bool f.requireAccessToken),
      (rawOf b!"require_id_token", .bool f.requireIdToken)]

theorem rvalue_bool (b : Bool) : RValue (Request.jsonBool b) (.bool b) := by
  cases b
  · exact .false
  · exact .true

theorem rvalue_flow (f : Option Flow) : RValue (Request.flowJson f) (toJson f) := by
  cases f with
  | none => exact .null
  | some f =>
    refine robj_join
      [⟨jsonString b!"type", rawOf b!"type", marshalJSON f.type, .str (typeString f.type)⟩,
       ⟨jsonString b!"require_access_token", rawOf b!"require_access_token", _, .bool f.requireAccessToken⟩,
       ⟨jsonString b!"require_id_token", rawOf b!"require_id_token", _, .bool f.requireIdToken⟩] (by simp) ?_
    intro x hx
    simp only [List.mem_cons, List.not_mem_nil, or_false] at hx
    rcases hx with rfl | rfl | rfl
    · refine ⟨rstr_jsonString _, .str ?_⟩
      show RStr (marshalJSON f.type) (typeString f.type)
      rw [marshal_eq, ← rawOf_type]
      have := rstr_jsonString (typeString f.type)
      rwa [rawOf_type] at this ⊢
    · exact ⟨rstr_jsonString _, rvalue_bool _⟩
    · exact ⟨rstr_jsonString _, rvalue_bool _⟩

theorem setJson_toJson (f : Option Flow) : setJson none (toJson f) = (f, true) := by
  cases f with
  | none => rfl
  | some f =>
    obtain ⟨t, a, i⟩ := f
    cases t <;> cases a <;> cases i <;> decide +kernel

end Flow

namespace Request

/-- A request with every string made valid UTF-8. -/
def toValid (r : Request) : Request :=
  { flow := r.flow, clientId := Goidc.toValid r.clientId, scope := Goidc.toValid r.scope,
    redirectURI := Goidc.toValid r.redirectURI, responseMode := Goidc.toValid r.responseMode,
    state := Goidc.toValid r.state, codeVerifier := Goidc.toValid r.codeVerifier, nonce := Goidc.toValid r.nonce,
    display := Goidc.toValid r.display, prompt := Goidc.toValid r.prompt, maxAge := r.maxAge,
    uiLocale := Goidc.toValid r.uiLocale, idTokenHint := Goidc.toValid r.idTokenHint,
    loginHint := Goidc.toValid r.loginHint }

/-- The members written by `marshal`. -/
def fields (r : Request) : List Field :=
  [⟨jsonString b!"flow", rawOf b!"flow", flowJson r.flow, Flow.toJson r.flow⟩,
   .ofStr b!"client_id" r.clientId, .ofStr b!"scope" r.scope, .ofStr b!"redirect_uri" r.redirectURI,
   .ofStr b!"response_mode" r.responseMode, .ofStr b!"state" r.state, .ofStr b!"code_verifier" r.codeVerifier,
   .ofStr b!"nonce" r.nonce, .ofStr b!"display" r.display, .ofStr b!"prompt" r.prompt, .ofInt b!"max_age" r.maxAge,
   .ofStr b!"ui_locale" r.uiLocale, .ofStr b!"id_token_hint" r.idTokenHint, .ofStr b!"login_hint" r.loginHint]

theorem rvalue_marshal (r : Request) : RValue r.marshal (.obj (r.fields.map fun x => (x.key, x.value))) := by
  refine robj_join r.fields (by simp [fields]) ?_
  intro x hx
  simp only [fields, List.mem_cons, List.not_mem_nil, or_false] at hx
  rcases hx with rfl | rfl | rfl | rfl | rfl | rfl | rfl | rfl | rfl | rfl | rfl | rfl | rfl | rfl
  · exact ⟨rstr_jsonString _, Flow.rvalue_flow _⟩
  all_goals first | exact field_ofStr _ _ | exact field_ofInt _ _

theorem unmarshal_marshal (r : Request) : unmarshal r.marshal = r.toValid := by
  unfold unmarshal
  rw [parse_value (rvalue_marshal r)]
  simp only [fields, List.map_cons, List.map_nil, Field.ofStr, Field.ofInt]
  rw [set_flow, show zero.flow = none from rfl, Flow.setJson_toJson, if_pos rfl, set_clientId, set_scope,
    set_redirectURI, set_responseMode, set_state, set_codeVerifier, set_nonce, set_display, set_prompt, set_maxAge,
    set_uiLocale, set_idTokenHint, set_loginHint]
  simp only [setMembers, asString, asInt64, unquote_rawOf, atoi_itoa, Option.getD_some, toValid]

theorem decode_encode (r : Request) : decode r.encode = r.toValid := by
  unfold decode encode
  rw [b64Decode_encode]
  exact unmarshal_marshal r

end Request
end Goidc
