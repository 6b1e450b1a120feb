import Verif.Lemmas.HttpRead
import Verif.Spec.TokenEndpoint
import Verif.Spec.Protector
import Verif.Model.Pkce
import Verif.Sample.World

/-! # C80: what the endpoints read of a request -/

namespace Goidc.Props

open Spec

/-! ## Headers and parameters -/

/-- C80: a header is read as the value of the first header of that name, in any capitalisation; as
empty exactly when that value is empty or there is no such header. -/
theorem C80_header (r : Req) (name : GoStr) :
    (∀ v, FirstHeader r name v → r.header name = v) ∧ (NoHeader r name → r.header name = []) ∧
    ((∃ v, FirstHeader r name v) ∨ NoHeader r name) :=
  ⟨fun _ h => header_first h, header_none, (header_or r name).imp (fun h => ⟨_, h⟩) (·.1)⟩

theorem bodyParams_pos {r : Req} (h : HasBody r) : r.bodyParams = r.body := if_pos h
theorem bodyParams_neg {r : Req} (h : ¬ HasBody r) : r.bodyParams = [] := if_neg h

theorem noBody {r : Req} {name} (h : NoBodyParam r name) : NoParam r.bodyParams name := by
  by_cases hb : HasBody r
  · rw [bodyParams_pos hb]; exact h hb
  · rw [bodyParams_neg hb]; exact fun _ hx => nomatch hx

theorem body_or (r : Req) (name : GoStr) : (∃ v, BodyParam r name v) ∨ NoBodyParam r name := by
  by_cases hb : HasBody r
  · rcases param_or r.body name with ⟨v, h⟩ | h
    · exact .inl ⟨v, hb, h⟩
    · exact .inr fun _ => h
  · exact .inr fun h => absurd h hb

theorem post_first {r : Req} {name v} (h : BodyParam r name v) : r.postFormValue name = v := by
  rw [Req.postFormValue, bodyParams_pos h.1]; exact lookup_first h.2

theorem form_first {r : Req} {name v} (h : FormParam r name v) : r.formValue name = v := by
  unfold Req.formValue Req.formParams
  rcases h with ⟨hm, h | h⟩ | ⟨hm, h | h⟩
  · rw [if_neg (by simp [hm]), bodyParams_pos h.1]; exact lookup_first (lookup_append_first h.2)
  · rw [if_neg (by simp [hm])]; exact lookup_first (lookup_append_none (noBody h.1) h.2)
  · rw [if_pos hm]; exact lookup_first (lookup_append_first h)
  · rw [if_pos hm, bodyParams_pos h.2.1]; exact lookup_first (lookup_append_none h.1 h.2.2)

theorem form_none {r : Req} {name} (h : NoFormParam r name) : r.formValue name = [] := by
  refine lookup_none fun x hx => ?_
  unfold Req.formParams at hx
  split at hx <;> rcases List.mem_append.1 hx with hx | hx
  · exact h.2 x hx
  · exact noBody h.1 x hx
  · exact noBody h.1 x hx
  · exact h.2 x hx

theorem form_or (r : Req) (name : GoStr) : (∃ v, FormParam r name v) ∨ NoFormParam r name := by
  cases hm : r.multipart
  · rcases body_or r name with ⟨v, h⟩ | h
    · exact .inl ⟨v, .inl ⟨hm, .inl h⟩⟩
    · rcases param_or r.query name with ⟨v, h'⟩ | h'
      · exact .inl ⟨v, .inl ⟨hm, .inr ⟨h, h'⟩⟩⟩
      · exact .inr ⟨h, h'⟩
  · rcases param_or r.query name with ⟨v, h'⟩ | h'
    · exact .inl ⟨v, .inr ⟨hm, .inl h'⟩⟩
    · rcases body_or r name with ⟨v, h⟩ | h
      · exact .inl ⟨v, .inr ⟨hm, .inr ⟨h', h⟩⟩⟩
      · exact .inr ⟨h, h'⟩

/-- C80: a body parameter is read as its first occurrence in the body of a POST, PUT or PATCH or in a multipart body, and
as empty when there is none. -/
theorem C80_body_parameter (r : Req) (name : GoStr) :
    (∀ v, BodyParam r name v → r.postFormValue name = v) ∧
    (NoBodyParam r name → r.postFormValue name = []) ∧
    ((∃ v, BodyParam r name v) ∨ NoBodyParam r name) :=
  ⟨fun _ h => post_first h, fun h => lookup_none (noBody h), body_or r name⟩

/-- C80: a request parameter is read as its first occurrence in the body (of a POST, PUT or PATCH),
else as its first occurrence in the query, else as empty; with a multipart body as its first occurrence in the query, else in
the body, else as empty. -/
theorem C80_parameter (r : Req) (name : GoStr) :
    (∀ v, FormParam r name v → r.formValue name = v) ∧
    (NoFormParam r name → r.formValue name = []) ∧
    ((∃ v, FormParam r name v) ∨ NoFormParam r name) :=
  ⟨fun _ h => form_first h, form_none, form_or r name⟩

theorem form_eq_iff {r : Req} {name v : GoStr} (hv : v ≠ []) : r.formValue name = v ↔ FormParam r name v := by
  refine ⟨fun h => ?_, form_first⟩
  rcases form_or r name with ⟨w, hw⟩ | hn
  · rw [form_first hw] at h; rwa [← h]
  · rw [form_none hn] at h; exact absurd h.symm hv

theorem post_eq_iff {r : Req} {name v : GoStr} (hv : v ≠ []) : r.postFormValue name = v ↔ BodyParam r name v := by
  refine ⟨fun h => ?_, post_first⟩
  rcases body_or r name with ⟨w, hw⟩ | hn
  · rw [post_first hw] at h; rwa [← h]
  · rw [Req.postFormValue, lookup_none (noBody hn)] at h; exact absurd h.symm hv

theorem header_eq_iff {r : Req} {name v : GoStr} (hv : v ≠ []) : r.header name = v ↔ FirstHeader r name v := by
  refine ⟨fun h => ?_, header_first⟩
  rcases header_or r name with hw | hn
  · rwa [h] at hw
  · rw [hn.2] at h; exact absurd h.symm hv

/-! ## Credentials -/

/-- C80: HTTP Basic credentials are read exactly when the first Authorization header carries them:
`Basic ` in any case and a complete base64 text of `user:password`. -/
theorem C80_basic_credentials (r : Req) (user password : GoStr) :
    r.basicAuth = some (user, password) ↔ BasicCredentials r user password := basicAuth_iff r user password

theorem no_basic (r : Req) : r.basicAuth = none ↔ ∀ u p, ¬ BasicCredentials r u p := by
  constructor
  · intro h u p hb
    rw [(basicAuth_iff r u p).2 hb] at h
    cases h
  · intro h
    cases hb : r.basicAuth with
    | none => rfl
    | some x => exact absurd ((basicAuth_iff r x.1 x.2).1 hb) (h x.1 x.2)

/-- C80: a request carries at most one pair of Basic credentials. -/
theorem C80_basic_unique {r : Req} {u p u' p' : GoStr} (h : BasicCredentials r u p)
    (h' : BasicCredentials r u' p') : u = u' ∧ p = p' := by
  have h1 := (basicAuth_iff r u p).2 h
  rw [(basicAuth_iff r u' p').2 h'] at h1
  exact ⟨(Prod.mk.inj (Option.some.inj h1)).1.symm, (Prod.mk.inj (Option.some.inj h1)).2.symm⟩

/-- C80: the client credentials the token endpoint takes from a request under an acceptance policy
(`Presented`, C04 and C77), read off the raw request. -/
theorem C80_client_credentials (m : AcceptanceMethod) (r : Req) (cid sec : GoStr) (inHeader : Bool) :
    Presented m r cid sec inHeader ↔
      (inHeader = true ∧ BasicCredentials r cid sec) ∨
      (inHeader = false ∧ cid ≠ [] ∧ sec ≠ [] ∧ (∀ u p, ¬ BasicCredentials r u p) ∧
        (m = .fromHeaderAndPostBody ∧ BodyParam r b!"client_id" cid ∧ BodyParam r b!"client_secret" sec ∨
         m = .fromAll ∧ FormParam r b!"client_id" cid ∧ FormParam r b!"client_secret" sec)) := by
  constructor
  · intro h
    cases h with
    | header h => exact .inl ⟨rfl, (basicAuth_iff _ _ _).1 h⟩
    | body hm hn h1 h2 h3 h4 =>
      exact .inr ⟨rfl, h3, h4, (no_basic r).1 hn, .inl ⟨hm, (post_eq_iff h3).1 h1, (post_eq_iff h4).1 h2⟩⟩
    | any hm hn h1 h2 h3 h4 =>
      exact .inr ⟨rfl, h3, h4, (no_basic r).1 hn, .inr ⟨hm, (form_eq_iff h3).1 h1, (form_eq_iff h4).1 h2⟩⟩
  · rintro (⟨rfl, h⟩ | ⟨rfl, h3, h4, hn, ⟨hm, h1, h2⟩ | ⟨hm, h1, h2⟩⟩)
    · exact .header _ _ ((basicAuth_iff _ _ _).2 h)
    · exact .body _ _ hm ((no_basic r).2 hn) (post_first h1) (post_first h2) h3 h4
    · exact .any _ _ hm ((no_basic r).2 hn) (form_first h1) (form_first h2) h3 h4

/-- C80: `basic_auth.FindClientCredential` finds the Basic credentials of the header, else those of
the parameters. -/
theorem C80_find_client_credential (r : Req) (cid sec : GoStr) :
    BasicAuth.findClientCredential r = some (cid, sec) ↔
      BasicCredentials r cid sec ∨
      (cid ≠ [] ∧ sec ≠ [] ∧ (∀ u p, ¬ BasicCredentials r u p) ∧
        FormParam r b!"client_id" cid ∧ FormParam r b!"client_secret" sec) := by
  unfold BasicAuth.findClientCredential
  cases hb : r.basicAuth with
  | some x =>
    have hx := (basicAuth_iff r x.1 x.2).1 hb
    constructor
    · intro h
      obtain rfl := Option.some.inj h
      exact .inl hx
    · rintro (h | h)
      · obtain ⟨rfl, rfl⟩ := C80_basic_unique hx h
        rfl
      · exact absurd hx (h.2.2.1 _ _)
  | none =>
    have hn := (no_basic r).1 hb
    dsimp only
    constructor
    · intro h
      split at h
      · rename_i hc
        obtain ⟨rfl, rfl⟩ := Prod.mk.inj (Option.some.inj h)
        exact .inr ⟨hc.1, hc.2, hn, (form_eq_iff hc.1).1 rfl, (form_eq_iff hc.2).1 rfl⟩
      · cases h
    · rintro (h | ⟨h1, h2, -, h3, h4⟩)
      · exact absurd h (hn _ _)
      · rw [form_first h3, form_first h4, if_pos ⟨h1, h2⟩]

/-- C80: the client assertion the token endpoint takes from a request, read off the raw request. -/
theorem C80_client_assertion (r : Req) (ca : GoStr) :
    PresentedAssertion r ca ↔ ca ≠ [] ∧ FormParam r b!"client_assertion" ca ∧
      FormParam r b!"client_assertion_type" b!"urn:ietf:params:oauth:client-assertion-type:jwt-bearer" := by
  unfold PresentedAssertion
  rw [form_eq_iff (name := b!"client_assertion_type") (by decide)]
  constructor
  · rintro ⟨h1, h2, h3⟩; exact ⟨h2, (form_eq_iff h2).1 h1, h3⟩
  · rintro ⟨h2, h1, h3⟩; exact ⟨form_first h1, h2, h3⟩

/-- C80: the bearer token of a request (`BearerToken`, C27 to C32 and C69), read off the raw request:
the first Authorization header is `bearer` in any case, a space, and the token; when nothing stands
after that space, a parameter in the places the policy allows. -/
theorem C80_bearer_token (m : AcceptanceMethod) (r : Req) (tok : GoStr) :
    BearerToken m r tok ↔ tok ≠ [] ∧ ∃ v scheme second rest,
      FirstHeader r b!"Authorization" v ∧ Words v (scheme :: second :: rest) ∧
      SameFold scheme b!"Bearer" ∧
      (tok = second ∨
       second = [] ∧ (m = .fromHeaderAndPostBody ∧ BodyParam r b!"access_token" tok ∨
                      m = .fromAll ∧ FormParam r b!"access_token" tok)) := by
  have hlow : ∀ s : GoStr, toLower s = b!"bearer" ↔ SameFold s b!"Bearer" := fun s => by
    rw [← toLower_eq_iff]
    exact Iff.of_eq (congrArg (toLower s = ·) (by decide))
  have hne : ∀ {v : GoStr} {s w rest}, Words v (s :: w :: rest) → v ≠ [] := by
    intro v s w rest h he
    subst he
    have := fields_iff.1 h
    simp [split] at this
  unfold BearerToken
  constructor
  · rintro ⟨scheme, second, rest, hw, hs, ht, h⟩
    refine ⟨ht, _, scheme, second, rest, (header_eq_iff (hne hw)).1 rfl, hw, (hlow _).1 hs, ?_⟩
    refine h.imp id fun ⟨h1, h2⟩ => ⟨h1, h2.imp ?_ ?_⟩
    · exact fun ⟨a, b⟩ => ⟨a, (post_eq_iff ht).1 b.symm⟩
    · exact fun ⟨a, b⟩ => ⟨a, (form_eq_iff ht).1 b.symm⟩
  · rintro ⟨ht, v, scheme, second, rest, hv, hw, hs, h⟩
    refine ⟨scheme, second, rest, by rwa [header_first hv], (hlow _).2 hs, ht, ?_⟩
    refine h.imp id fun ⟨h1, h2⟩ => ⟨h1, h2.imp ?_ ?_⟩
    · exact fun ⟨a, b⟩ => ⟨a, (post_first b).symm⟩
    · exact fun ⟨a, b⟩ => ⟨a, (form_first b).symm⟩

/-! ## Base64 -/

/-- C80: a base64 text is accepted exactly when, apart from line breaks, it is a complete padded text
over the alphabet, and it is decoded to the bytes it spells. -/
theorem C80_base64 (t d : List UInt8) :
    b64Decode false t = (d, true) ↔ Base64Text base64Alphabet (unbroken t) d := b64Decode_iff false t d

/-! ## Non-vacuity -/

/-- A request with Basic credentials `joe:a:b`, spelt `bAsIc`, a second Authorization header, and
parameters in body and query. -/
def mixed : Req :=
  ⟨b!"POST", b!"/token",
    [(b!"Accept", b!"x"), (b!"aUTHORIZATION", b!"bAsIc am9lOmE6Yg=="), (b!"Authorization", b!"Bearer t")],
    [(b!"client_id", b!"one"), (b!"client_id", b!"two"), (b!"client_secret", b!"s")],
    [(b!"client_id", b!"three"), (b!"scope", b!"four")], false⟩

theorem mixed_basic : BasicCredentials mixed b!"joe" b!"a:b" := (basicAuth_iff _ _ _).1 (by decide +kernel)

example : ¬ ∃ u p, BasicCredentials { mixed with headers := [(b!"Authorization", b!"Basic am9lOmE6Yg==x")] } u p := by
  rintro ⟨u, p, h⟩
  have := (basicAuth_iff _ _ _).2 h
  rw [show Req.basicAuth _ = none from by decide +kernel] at this
  cases this

example : FormParam mixed b!"client_id" b!"one" ∧ FormParam mixed b!"scope" b!"four" ∧
    NoBodyParam mixed b!"scope" ∧ NoFormParam mixed b!"Scope" := by
  refine ⟨.inl ⟨rfl, .inl ⟨.inr (.inl rfl), [], _, rfl, nofun⟩⟩, .inl ⟨rfl, .inr ⟨?_, [(b!"client_id", b!"three")], [], rfl, ?_⟩⟩, ?_, ?_, ?_⟩ <;>
    simp [NoBodyParam, NoParam, mixed]

example : FormParam { mixed with method := b!"GET" } b!"client_id" b!"three" := by
  refine .inl ⟨rfl, .inr ⟨fun h => ?_, [], _, rfl, nofun⟩⟩
  simp [HasBody, mixed] at h

/-- With a multipart body the URL comes first. -/
example : FormParam { mixed with multipart := true } b!"client_id" b!"three" ∧
    FormParam { mixed with multipart := true } b!"client_secret" b!"s" := by
  refine ⟨.inr ⟨rfl, .inl ⟨[], _, rfl, nofun⟩⟩, .inr ⟨rfl, .inr ⟨?_, .inl rfl,
    [(b!"client_id", b!"one"), (b!"client_id", b!"two")], [], rfl, ?_⟩⟩⟩ <;> simp [NoParam, mixed]

example : BearerToken .fromHeader { mixed with headers := [(b!"authorization", b!"BEARER tok")] } b!"tok" := by
  refine ⟨b!"BEARER", b!"tok", [], fields_iff.2 (by decide +kernel), by decide, by decide, .inl rfl⟩

example : Base64Text base64Alphabet b!"am9lOmE6Yh==" b!"joe:a:b" :=
  (b64DecodeQ_iff false _ _).1 (show b64DecodeQ false b!"am9lOmE6Yh==" = (b!"joe:a:b", true) by decide +kernel)

end Goidc.Props
