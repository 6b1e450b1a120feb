import Verif.Lemmas.RequestJson
import Verif.Props.Grants
import Verif.Props.CodeGrant

/-! # C51, C61: what is written as JSON is read back -/

namespace Goidc.Props

open Spec Json TokenEndpoint

/-! ## C51 -/

/-- The string fields of an authorization request. -/
def requestStrings (r : Request) : List GoStr :=
  [r.clientId, r.scope, r.redirectURI, r.responseMode, r.state, r.codeVerifier, r.nonce, r.display, r.prompt,
   r.uiLocale, r.idTokenHint, r.loginHint]

/-- C51: decoding an encoded request gives the request back, for every flow (or none), every `int64` and
all strings that are valid UTF-8. -/
theorem C51_roundtrip (r : Request) (h : ∀ s ∈ requestStrings r, ValidUtf8 s) : Request.decode r.encode = r := by
  rw [Request.decode_encode]
  simp only [requestStrings, List.forall_mem_cons] at h
  obtain ⟨h1, h2, h3, h4, h5, h6, h7, h8, h9, h10, h11, h12, _⟩ := h
  unfold Request.toValid
  rw [toValid_of_valid h1, toValid_of_valid h2, toValid_of_valid h3, toValid_of_valid h4, toValid_of_valid h5,
    toValid_of_valid h6, toValid_of_valid h7, toValid_of_valid h8, toValid_of_valid h9, toValid_of_valid h10,
    toValid_of_valid h11, toValid_of_valid h12]

/-- A request with awkward strings. -/
def awkwardRequest : Request :=
  { Request.zero with
    flow := some ⟨.hybrid, true, false⟩, clientId := b!"c\"\\<>&", state := b!"\n\t é\u2028 😀", maxAge := -1 }

example : ∀ s ∈ requestStrings awkwardRequest, ValidUtf8 s := by
  intro s hs
  rw [← validUtf8_iff]
  exact List.all_eq_true.1 (show (requestStrings awkwardRequest).all validUtf8 = true by decide +kernel) s hs

/-- The encoded request can be put into a URL or a form field as it is. -/
theorem C51_url_safe (r : Request) : ∀ c ∈ r.encode, c ∈ base64urlAlphabet ∨ c = 61 := by
  intro c hc
  rcases b64Encode_mem true _ c hc with ⟨n, hn, rfl⟩ | h
  · rw [b64Char_url n hn]
    refine .inl ?_
    have : ∀ n < 64, base64urlAlphabet.getD n 0 ∈ base64urlAlphabet := by decide
    exact this n hn
  · exact .inr h

/-- Distinct valid requests have distinct encodings. -/
theorem C51_injective {r r' : Request} (h : ∀ s ∈ requestStrings r, ValidUtf8 s)
    (h' : ∀ s ∈ requestStrings r', ValidUtf8 s) (he : r.encode = r'.encode) : r = r' := by
  rw [← C51_roundtrip r h, he, C51_roundtrip r' h']

/-- Why the strings must be valid UTF-8: any other byte comes back as U+FFFD. -/
theorem C51_invalid_byte : ∃ r : Request, Request.decode r.encode ≠ r :=
  ⟨{ Request.zero with state := [255] }, by
    rw [Request.decode_encode]
    intro h
    exact absurd (congrArg Request.state h) (by decide +kernel)⟩

/-! ## C61 -/

theorem rawOf_key {k : GoStr} (h : ∀ c ∈ k, c.toNat < 128) : unquote (rawOf k) = k := by
  rw [unquote_rawOf, toValid_of_valid (valid_ascii h)]

theorem value_str {s : GoStr} (h : ValidUtf8 s) : (Json.str (rawOf s)).value = .str s := by
  simp only [Json.value, unquote_rawOf, toValid_of_valid h]

/-- The members of a token response. -/
def responseFields (r : Response) : List Field :=
  [.ofStr b!"token_type" r.tokenType, .ofStr b!"access_token" r.accessToken, .ofInt b!"expires_in" r.expiresIn]
  ++ (if r.refreshToken = [] then [] else [.ofStr b!"refresh_token" r.refreshToken])
  ++ [.ofStr b!"scope" r.scope]
  ++ (if r.idToken = [] then [] else [.ofStr b!"id_token" r.idToken])

theorem response_json (r : Response) : r.json =
    b!"{" ++ join 44 ((responseFields r).map fun x => x.keyText ++ 58 :: x.text) ++ b!"}" := by
  unfold Response.json responseFields
  split <;> split <;> rfl

theorem response_ok (r : Response) : ∀ x ∈ responseFields r, RStr x.keyText x.key ∧ RValue x.text x.value := by
  intro x hx
  unfold responseFields at hx
  simp only [List.mem_append, List.mem_cons, List.not_mem_nil, or_false] at hx
  rcases hx with (((rfl | rfl | rfl) | hx) | rfl) | hx
  · exact field_ofStr _ _
  · exact field_ofStr _ _
  · exact field_ofInt _ _
  · split at hx
    · cases hx
    · simp only [List.mem_singleton] at hx; subst hx; exact field_ofStr _ _
  · exact field_ofStr _ _
  · split at hx
    · cases hx
    · simp only [List.mem_singleton] at hx; subst hx; exact field_ofStr _ _

/-- C61: the serialised response is a JSON object with exactly these members. -/
theorem C61_response (r : Response) (ht : r.tokenType = b!"Bearer") (ha : ValidUtf8 r.accessToken)
    (hr : ValidUtf8 r.refreshToken) (hs : ValidUtf8 r.scope) (hi : ValidUtf8 r.idToken) :
    ∃ lifetime, CanonicalDecimal lifetime r.expiresIn.toInt ∧
      JsonText r.json (.obj (tokenMembers r.accessToken lifetime r.refreshToken r.scope r.idToken)) := by
  refine ⟨itoa r.expiresIn, itoa_canonical _, ?_⟩
  have h := jsonText_of_raw (robj_join _ (by simp [responseFields]) (response_ok r))
  rw [← response_json] at h
  have k1 : unquote (rawOf b!"token_type") = b!"token_type" := by decide +kernel
  have k2 : unquote (rawOf b!"access_token") = b!"access_token" := by decide +kernel
  have k3 : unquote (rawOf b!"expires_in") = b!"expires_in" := by decide +kernel
  have k4 : unquote (rawOf b!"refresh_token") = b!"refresh_token" := by decide +kernel
  have k5 : unquote (rawOf b!"scope") = b!"scope" := by decide +kernel
  have k6 : unquote (rawOf b!"id_token") = b!"id_token" := by decide +kernel
  have hb : ValidUtf8 b!"Bearer" := valid_ascii (by decide)
  have e : (Json.obj ((responseFields r).map fun x => (x.key, x.value))).value =
      .obj (tokenMembers r.accessToken (itoa r.expiresIn) r.refreshToken r.scope r.idToken) := by
    simp only [Json.value, membersValue_map, List.map_map]
    congr 1
    unfold responseFields tokenMembers
    rw [ht]
    split <;> split <;>
      simp [Field.ofStr, Field.ofInt, k1, k2, k3, k4, k5, k6, value_str hb, value_str ha, value_str hr, value_str hs,
        value_str hi] <;> rfl
  rw [e] at h
  exact h

variable {cfg : TokenCfg} {lib : Lib} {r : Req} {pre : List Event} {resp : HttpResp}

/-- C61 at the endpoint: the body of a 200 answer is a JSON object with the token the backend has just
created (or refreshed), its lifetime, the scope of the authorization, and an ID token signed for the
authenticated client or none (see C14 for when and over what). -/
theorem C61_token_response (hb : AllBuiltIn lib cfg) (h : Steps (handler cfg lib r) (pre ++ [wrote resp]))
    (h200 : resp.status = 200) :
    ∃ tk info idt lifetime,
      (⟨.createOAuthToken (some info) true, (some tk, none)⟩ ∈ pre ∨
        ∃ old, ⟨.refreshAccessToken info old, (some tk, none)⟩ ∈ pre) ∧
      CanonicalDecimal lifetime tk.accessTokenExpiresIn.toInt ∧
      (idt = [] ∨ ∃ c claims, Authenticated cfg lib r c pre ∧
        SignedBy lib c.idTokenAlg c.idTokenKeyId claims c.idTokenKey idt) ∧
      (ValidUtf8 tk.accessToken → ValidUtf8 tk.refreshToken → ValidUtf8 info.scope → ValidUtf8 idt →
        JsonText resp.body (.obj (tokenMembers tk.accessToken lifetime tk.refreshToken info.scope idt))) := by
  obtain ⟨_, _, hf, _, _, _, _, _, hreg, _⟩ := token_200 (fun h hr => builtIn_silent (hb _ h hr)) h h200
  have fin : ∀ (tk : OAuthToken) (info : AuthInfo) (res : Response), resp.body = res.json →
      res.tokenType = b!"Bearer" → res.accessToken = tk.accessToken → res.expiresIn = tk.accessTokenExpiresIn →
      res.refreshToken = tk.refreshToken → res.scope = info.scope →
      ∃ lifetime, CanonicalDecimal lifetime tk.accessTokenExpiresIn.toInt ∧
      (ValidUtf8 tk.accessToken → ValidUtf8 tk.refreshToken → ValidUtf8 info.scope → ValidUtf8 res.idToken →
        JsonText resp.body (.obj (tokenMembers tk.accessToken lifetime tk.refreshToken info.scope res.idToken))) := by
    intro tk info res h1 h2 h3 h4 h5 h6
    refine ⟨itoa tk.accessTokenExpiresIn, itoa_canonical _, fun v1 v2 v3 v4 => ?_⟩
    obtain ⟨l, hl, hj⟩ := C61_response res h2 (by rw [h3]; exact v1) (by rw [h5]; exact v2) (by rw [h6]; exact v3) v4
    rw [h1, ← h3, ← h5, ← h6]
    have : l = itoa tk.accessTokenExpiresIn := by
      obtain ⟨j, hp, hv⟩ := parse_complete hj
      have h' := jsonText_of_raw (robj_join _ (by simp [responseFields]) (response_ok res))
      rw [← response_json] at h'
      have := jsonText_unique hj h'
      rw [← h4]
      simp only [Json.value, membersValue_map, List.map_map, responseFields, tokenMembers] at this
      simp [Field.ofStr, Field.ofInt, Json.value] at this
      exact this.2.2.1.2
    rw [← this]
    exact hj
  cases hb _ hf hreg with
  | authorizationCode =>
    obtain ⟨c, auth, now, sess, info, tk, idc, res, ha, _, _, h4, _, _, _, _, _, h10, h11⟩ := code_200 hreg h h200
    have hm : (⟨.createOAuthToken (some info) true, (some tk, none)⟩ : Event) ∈ pre :=
      (mem_dataCalls rfl).1 (by rw [h4]; simp)
    obtain ⟨l, h1, h2⟩ := fin tk info res (by rw [h11])
      (by rcases h10 with ⟨_, _, _, _, _, rfl⟩ | ⟨_, _, rfl⟩ <;> rfl)
      (by rcases h10 with ⟨_, _, _, _, _, rfl⟩ | ⟨_, _, rfl⟩ <;> rfl)
      (by rcases h10 with ⟨_, _, _, _, _, rfl⟩ | ⟨_, _, rfl⟩ <;> rfl)
      (by rcases h10 with ⟨_, _, _, _, _, rfl⟩ | ⟨_, _, rfl⟩ <;> rfl)
      (by rcases h10 with ⟨_, _, _, _, _, rfl⟩ | ⟨_, _, rfl⟩ <;> rfl)
    refine ⟨tk, info, res.idToken, l, .inl hm, h1, ?_, h2⟩
    rcases h10 with ⟨_, _, _, _, hg, rfl⟩ | ⟨_, _, rfl⟩
    · obtain ⟨claims, hs, _⟩ := gen_signed hg
      refine .inr ⟨c, claims, authenticated_mono ha fun e he => ?_, hs⟩
      have : e ∈ dataCalls pre := by rw [h4]; simp [he]
      exact (List.mem_filter.1 this).1
    · exact .inl rfl
  | refreshToken =>
    obtain ⟨c, auth, now, t2, res, _, _, _, _, hok, h4, h5⟩ := grant_200 hreg .refreshToken h h200
    obtain ⟨old, info, tk, _, rfl, _, _, _, rfl⟩ := refreshToken_ok hok
    have hm : (⟨.refreshAccessToken info old, (some tk, none)⟩ : Event) ∈ pre :=
      (mem_dataCalls rfl).1 (by rw [h4]; simp [dataCalls, Query.isData])
    obtain ⟨l, h1, h2⟩ := fin tk info _ (by rw [h5]) rfl rfl rfl rfl rfl
    exact ⟨tk, info, _, l, .inr ⟨old, hm⟩, h1, .inl rfl, h2⟩
  | password =>
    obtain ⟨c, auth, now, t2, res, _, _, _, _, hok, h4, h5⟩ := grant_200 hreg .password h h200
    obtain ⟨uid, info, tk, _, _, _, rfl, rfl⟩ := password_ok hok
    have hm : (⟨.createOAuthToken (some info) true, (some tk, none)⟩ : Event) ∈ pre :=
      (mem_dataCalls rfl).1 (by rw [h4]; simp [dataCalls, Query.isData])
    obtain ⟨l, h1, h2⟩ := fin tk info _ (by rw [h5]) rfl rfl rfl rfl rfl
    exact ⟨tk, info, _, l, .inl hm, h1, .inl rfl, h2⟩
  | clientCredentials =>
    obtain ⟨c, auth, now, t2, res, _, _, _, _, hok, h4, h5⟩ := grant_200 hreg .clientCredentials h h200
    obtain ⟨info, tk, _, _, rfl, rfl⟩ := clientCredentials_ok hok
    have hm : (⟨.createOAuthToken (some info) true, (some tk, none)⟩ : Event) ∈ pre :=
      (mem_dataCalls rfl).1 (by rw [h4]; simp [dataCalls, Query.isData])
    obtain ⟨l, h1, h2⟩ := fin tk info _ (by rw [h5]) rfl rfl rfl rfl rfl
    exact ⟨tk, info, _, l, .inl hm, h1, .inl rfl, h2⟩
  | jwt =>
    obtain ⟨c, auth, now, t2, res, _, _, _, _, hok, h4, h5⟩ := grant_200 hreg .jwt h h200
    obtain ⟨tkn, k, wall, exp, aud, sub, uid, info, tk, _, _, _, _, _, _, _, _, _, _, _, _, rfl, rfl⟩ := jwt_ok hok
    have hm : (⟨.createOAuthToken (some info) true, (some tk, none)⟩ : Event) ∈ pre :=
      (mem_dataCalls rfl).1 (by rw [h4]; simp [dataCalls, Query.isData])
    obtain ⟨l, h1, h2⟩ := fin tk info _ (by rw [h5]) rfl rfl rfl rfl rfl
    exact ⟨tk, info, _, l, .inl hm, h1, .inl rfl, h2⟩

/-- The value of a JSON text is unique, so the members above are the only ones. -/
theorem C61_unique {t : GoStr} {v v' : Spec.JVal} (h : JsonText t v) (h' : JsonText t v') : v = v' :=
  jsonText_unique h h'

example : ∃ pre resp, Steps (handler Sample.tokenCfg Sample.lib (Sample.post Sample.codeBody))
    (pre ++ [wrote resp]) ∧ resp.status = 200 := ({} : Sample.World).steps (by decide +kernel)

end Goidc.Props
