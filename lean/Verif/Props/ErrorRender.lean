import Verif.Props.Json
import Verif.Lemmas.Challenge
import Verif.Lemmas.Front
import Verif.Props.TokenEndpoint

/-! # C55: OAuth errors are rendered faithfully; C66: the Basic challenge -/

namespace Goidc.Props

open Spec Json

/-! ## JSON -/

/-- The members of an error body. -/
def errorFields (e : OAuthError) : List Field :=
  [.ofStr b!"error" e.type.string]
  ++ (if e.description = [] then [] else [.ofStr b!"error_description" e.description])
  ++ (if e.uri = [] then [] else [.ofStr b!"error_uri" e.uri])

theorem error_json (e : OAuthError) : e.json =
    b!"{" ++ join 44 ((errorFields e).map fun x => x.keyText ++ 58 :: x.text) ++ b!"}" := by
  unfold OAuthError.json errorFields
  split <;> split <;> rfl

theorem error_ok (e : OAuthError) : ∀ x ∈ errorFields e, RStr x.keyText x.key ∧ RValue x.text x.value := by
  intro x hx
  unfold errorFields at hx
  simp only [List.mem_append, List.mem_singleton] at hx
  rcases hx with (rfl | hx) | hx
  · exact field_ofStr _ _
  · split at hx
    · cases hx
    · simp only [List.mem_singleton] at hx; subst hx; exact field_ofStr _ _
  · split at hx
    · cases hx
    · simp only [List.mem_singleton] at hx; subst hx; exact field_ofStr _ _

theorem code_ascii (t : OAuthErrorType) : ∀ c ∈ t.string, c.toNat < 128 := by
  cases t <;> simp only [OAuthErrorType.string] <;> decide

/-- C55: the body of an error is a JSON object with its code, and its description and URI when not
empty, and nothing else. -/
theorem C55_json (e : OAuthError) (hd : ValidUtf8 e.description) (hu : ValidUtf8 e.uri) :
    JsonText e.json (.obj (errorMembers e.type.string e.description e.uri)) := by
  have h := jsonText_of_raw (robj_join _ (by simp [errorFields]) (error_ok e))
  rw [← error_json] at h
  have k1 : unquote (rawOf b!"error") = b!"error" := by decide +kernel
  have k2 : unquote (rawOf b!"error_description") = b!"error_description" := by decide +kernel
  have k3 : unquote (rawOf b!"error_uri") = b!"error_uri" := by decide +kernel
  have hc := value_str (valid_ascii (code_ascii e.type))
  have eq : (Json.obj ((errorFields e).map fun x => (x.key, x.value))).value =
      .obj (errorMembers e.type.string e.description e.uri) := by
    simp only [Json.value, membersValue_map, List.map_map]
    congr 1
    unfold errorFields errorMembers
    split <;> split <;> simp [Field.ofStr, k1, k2, k3, hc, value_str hd, value_str hu]
  rw [eq] at h
  exact h

/-- Whatever the description and URI, the body is a JSON object with these member names. -/
theorem C55_json_any (e : OAuthError) : ∃ d u,
    (ValidUtf8 e.description → d = e.description) ∧ (ValidUtf8 e.uri → u = e.uri) ∧
    JsonText e.json (.obj (
      [(b!"error", .str e.type.string)]
      ++ (if e.description = [] then [] else [(b!"error_description", .str d)])
      ++ (if e.uri = [] then [] else [(b!"error_uri", .str u)]))) := by
  have h := jsonText_of_raw (robj_join _ (by simp [errorFields]) (error_ok e))
  rw [← error_json] at h
  have k1 : unquote (rawOf b!"error") = b!"error" := by decide +kernel
  have k2 : unquote (rawOf b!"error_description") = b!"error_description" := by decide +kernel
  have k3 : unquote (rawOf b!"error_uri") = b!"error_uri" := by decide +kernel
  have hc := value_str (valid_ascii (code_ascii e.type))
  refine ⟨unquote (rawOf e.description), unquote (rawOf e.uri), fun h => ?_, fun h => ?_, ?_⟩
  · rw [unquote_rawOf, toValid_of_valid h]
  · rw [unquote_rawOf, toValid_of_valid h]
  have eq : (Json.obj ((errorFields e).map fun x => (x.key, x.value))).value = .obj (
      [(b!"error", .str e.type.string)]
      ++ (if e.description = [] then [] else [(b!"error_description", .str (unquote (rawOf e.description)))])
      ++ (if e.uri = [] then [] else [(b!"error_uri", .str (unquote (rawOf e.uri)))])) := by
    simp only [Json.value, membersValue_map, List.map_map]
    congr 1
    simp only [Json.value, Spec.JVal.str.injEq] at hc
    unfold errorFields
    split <;> split <;> simp [Field.ofStr, k1, k2, k3, hc, Json.value]
  rw [eq] at h
  exact h

/-! ## The WWW-Authenticate header -/

theorem authParam_of {name q v : GoStr} (hne : name ≠ []) (hn : ∀ c ∈ name, IsNameChar c) (h : QuotedString q v) :
    AuthParam (name ++ 61 :: q) name v := ⟨q, hne, hn, h, rfl⟩

/-- The header with any reading of its quoted values. -/
theorem header_challenge {isPrint : Nat → Bool} (e : OAuthError) {realm r c d u : GoStr}
    (hr : QuotedString (quote isPrint realm) r) (hc : QuotedString (quote isPrint e.type.string) c)
    (hd : QuotedString (quote isPrint e.description) d) (hu : QuotedString (quote isPrint e.uri) u) :
    Challenge (e.header isPrint realm) b!"Bearer" (
      (if realm = [] then [] else [(b!"realm", r)]) ++ [(b!"error", c)]
      ++ (if e.description = [] then [] else [(b!"error_description", d)])
      ++ (if e.uri = [] then [] else [(b!"error_uri", u)])) := by
  have nm : ∀ n : GoStr, n ∈ [b!"realm", b!"error", b!"error_description", b!"error_uri"] →
      n ≠ [] ∧ ∀ c ∈ n, IsNameChar c := by unfold IsNameChar; decide
  have p1 := authParam_of (nm b!"realm" (by simp)).1 (nm b!"realm" (by simp)).2 hr
  have p2 := authParam_of (nm b!"error" (by simp)).1 (nm b!"error" (by simp)).2 hc
  have p3 := authParam_of (nm b!"error_description" (by simp)).1 (nm b!"error_description" (by simp)).2 hd
  have p4 := authParam_of (nm b!"error_uri" (by simp)).1 (nm b!"error_uri" (by simp)).2 hu
  let l : List (GoStr × GoStr × GoStr) :=
    (if realm = [] then [] else [(b!"realm" ++ 61 :: quote isPrint realm, b!"realm", r)])
    ++ [(b!"error" ++ 61 :: quote isPrint e.type.string, b!"error", c)]
    ++ (if e.description = [] then [] else
        [(b!"error_description" ++ 61 :: quote isPrint e.description, b!"error_description", d)])
    ++ (if e.uri = [] then [] else [(b!"error_uri" ++ 61 :: quote isPrint e.uri, b!"error_uri", u)])
  have hl : ∀ x ∈ l, AuthParam x.1 x.2.1 x.2.2 := by
    intro x hx
    simp only [l, List.mem_append, List.mem_singleton] at hx
    rcases hx with ((hx | rfl) | hx) | hx
    · split at hx
      · cases hx
      · simp only [List.mem_singleton] at hx; subst hx; exact p1
    · exact p2
    · split at hx
      · cases hx
      · simp only [List.mem_singleton] at hx; subst hx; exact p3
    · split at hx
      · cases hx
      · simp only [List.mem_singleton] at hx; subst hx; exact p4
  have h := authParams_join l (by simp [l]) hl
  refine ⟨joinStr b!", " (l.map (·.1)), ?_, by decide, ?_⟩
  · unfold OAuthError.header
    simp only [l]
    split <;> split <;> split <;> rfl
  · have : l.map (·.2) = (if realm = [] then [] else [(b!"realm", r)]) ++ [(b!"error", c)]
      ++ (if e.description = [] then [] else [(b!"error_description", d)])
      ++ (if e.uri = [] then [] else [(b!"error_uri", u)]) := by
      simp only [l]
      split <;> split <;> split <;> rfl
    rw [← this]
    exact h

theorem code_printable (isPrint : Nat → Bool) (t : OAuthErrorType) : Printable isPrint t.string := by
  have hp : ∀ c ∈ t.string, 32 ≤ c.toNat ∧ c.toNat < 127 := by
    cases t <;> simp only [OAuthErrorType.string] <;> decide
  refine ⟨t.string.map (·.toNat), ?_, ?_⟩
  · generalize t.string = s at hp
    induction s with
    | nil => rfl
    | cons c s ih =>
      have h := hp c List.mem_cons_self
      rw [List.map_cons, List.flatMap_cons, ← ih fun x hx => hp x (List.mem_cons_of_mem _ hx)]
      unfold utf8
      rw [if_pos (by omega)]
      simp
  · intro cp hcp
    obtain ⟨c, hc, rfl⟩ := List.mem_map.1 hcp
    have := hp c hc
    exact ⟨by unfold IsScalar; omega, .inl this⟩

/-- C55: for printable realms, descriptions and URIs the header is a Bearer challenge with exactly
these parameters. -/
theorem C55_header (isPrint : Nat → Bool) (e : OAuthError) (realm : GoStr) (hr : Printable isPrint realm)
    (hd : Printable isPrint e.description) (hu : Printable isPrint e.uri) :
    Challenge (e.header isPrint realm) b!"Bearer" (challengeParams realm e.type.string e.description e.uri) :=
  header_challenge e (quote_printable hr) (quote_printable (code_printable isPrint _)) (quote_printable hd)
    (quote_printable hu)

/-- C55: whatever the realm, description and URI, the header is a well-formed Bearer challenge: no value
can end its quoted string or add a parameter. -/
theorem C55_header_any (isPrint : Nat → Bool) (e : OAuthError) (realm : GoStr) : ∃ r d u,
    Challenge (e.header isPrint realm) b!"Bearer" (
      (if realm = [] then [] else [(b!"realm", r)]) ++ [(b!"error", e.type.string)]
      ++ (if e.description = [] then [] else [(b!"error_description", d)])
      ++ (if e.uri = [] then [] else [(b!"error_uri", u)])) := by
  obtain ⟨r, hr⟩ := quote_quoted isPrint realm
  obtain ⟨d, hd⟩ := quote_quoted isPrint e.description
  obtain ⟨u, hu⟩ := quote_quoted isPrint e.uri
  exact ⟨r, d, u, header_challenge e hr (quote_printable (code_printable isPrint _)) hd hu⟩

/-- A header value can be read as a challenge in one way only. -/
theorem C55_header_unique {t s s' : GoStr} {l l' : List (GoStr × GoStr)} (h : Challenge t s l)
    (h' : Challenge t s' l') : s = s' ∧ l = l' := challenge_unique h h'

theorem headerSafe_append {a b : GoStr} (ha : HeaderSafe a) (hb : HeaderSafe b) : HeaderSafe (a ++ b) := by
  intro c hc
  rcases List.mem_append.1 hc with hc | hc
  · exact ha c hc
  · exact hb c hc

theorem headerSafe_join : ∀ l : List GoStr, (∀ x ∈ l, HeaderSafe x) → HeaderSafe (joinStr b!", " l)
  | [], _ => by intro c hc; cases hc
  | [x], h => h x List.mem_cons_self
  | x :: y :: l, h => by
    have ih := headerSafe_join (y :: l) fun z hz => h z (List.mem_cons_of_mem _ hz)
    have e : joinStr b!", " (x :: y :: l) = x ++ (b!", " ++ joinStr b!", " (y :: l)) := by simp [joinStr]
    rw [e]
    exact headerSafe_append (h x List.mem_cons_self) (headerSafe_append (by unfold HeaderSafe; decide) ih)

/-- C55: no control character (CR and LF in particular) gets into the header. -/
theorem C55_header_safe (isPrint : Nat → Bool) (e : OAuthError) (realm : GoStr) :
    HeaderSafe (e.header isPrint realm) := by
  unfold OAuthError.header
  refine headerSafe_append (by unfold HeaderSafe; decide) (headerSafe_join _ ?_)
  intro x hx
  simp only [List.mem_append, List.mem_singleton] at hx
  rcases hx with ((hx | rfl) | hx) | hx
  · split at hx
    · cases hx
    · simp only [List.mem_singleton] at hx; subst hx
      exact headerSafe_append (by unfold HeaderSafe; decide) (quote_safe _ _)
  · exact headerSafe_append (by unfold HeaderSafe; decide) (quote_safe _ _)
  · split at hx
    · cases hx
    · simp only [List.mem_singleton] at hx; subst hx
      exact headerSafe_append (by unfold HeaderSafe; decide) (quote_safe _ _)
  · split at hx
    · cases hx
    · simp only [List.mem_singleton] at hx; subst hx
      exact headerSafe_append (by unfold HeaderSafe; decide) (quote_safe _ _)

/-- A printable text with characters that need quoting. -/
example : Printable (fun _ => true) b!"say \"é\" \\ 😀" :=
  ⟨[115, 97, 121, 32, 34, 233, 34, 32, 92, 32, 0x1F600], by decide, by unfold IsScalar; decide⟩

/-! ## Query -/

/-- C55: the query rendering carries the code, and the description, URI and state when not empty. -/
theorem C55_query (e : OAuthError) (state : GoStr) : Encodes (e.query state) (
    [(b!"error", e.type.string)]
    ++ (if e.description = [] then [] else [(b!"error_description", e.description)])
    ++ (if e.uri = [] then [] else [(b!"error_uri", e.uri)])
    ++ (if state = [] then [] else [(b!"state", state)])) := encodes_valuesEncode _

/-! ## Codes and statuses -/

/-- C55: distinct error types have distinct codes. -/
theorem C55_codes {t t' : OAuthErrorType} (ht : ∀ n, t ≠ .other n) (ht' : ∀ n, t' ≠ .other n)
    (h : t.string = t'.string) : t = t' := by
  cases t <;> cases t' <;>
    first
      | rfl
      | exact absurd rfl (ht _)
      | exact absurd rfl (ht' _)
      | (exfalso; revert h; decide)

/-- C55: no code is empty. -/
theorem C55_code_nonempty {t : OAuthErrorType} (ht : ∀ n, t ≠ .other n) : t.string ≠ [] := by
  cases t <;> first | exact absurd rfl (ht _) | decide

/-- C55: every error type has the code the standards register for it, with its status. -/
theorem C55_registered {e : OAuthError} (ht : ∀ n, e.type ≠ .other n) :
    (e.type, e.type.string, e.statusCode) ∈ registeredErrors := by
  obtain ⟨t, d, u⟩ := e
  cases t <;> first | exact absurd rfl (ht _) | (simp only [OAuthError.statusCode]; decide)

example : (OAuthErrorType.invalidScope, b!"invalid_scope", 400) ∈ registeredErrors :=
  C55_registered (e := .new .invalidScope b!"x") (by intro n; simp [OAuthError.new])

/-- C55: the statuses. -/
theorem C55_status (e : OAuthError) :
    (e.type = .serverError → e.statusCode = 500) ∧ (e.type = .invalidToken → e.statusCode = 401) ∧
    (e.type = .insufficientScope → e.statusCode = 403) ∧ (e.type = .accessDenied → e.statusCode = 403) ∧
    400 ≤ e.statusCode ∧ e.statusCode < 600 := by
  obtain ⟨t, d, u⟩ := e
  cases t <;> simp [OAuthError.statusCode, OAuthErrorType.statusCode]

/-! ## The error text -/

/-- C55: as a Go error, an error reads `code: description`, or just the code when there is no
description. -/
theorem C55_error_text (e : OAuthError) : ErrorText e.error e.type.string e.description := by
  unfold OAuthError.error
  split
  · rename_i h; rw [h]; exact .code _
  · rename_i h; exact .described _ _ h

theorem cut_unique : ∀ {a a' b b' : GoStr}, (58 : UInt8) ∉ a → (58 : UInt8) ∉ a' → a ++ 58 :: b = a' ++ 58 :: b' → a = a' ∧ b = b'
  | [], [], _, _, _, _, h => ⟨rfl, (List.cons.inj h).2⟩
  | [], x :: a', _, _, _, h', h => absurd (List.mem_cons.2 (.inl (List.cons.inj h).1)) h'
  | x :: a, [], _, _, h', _, h => absurd (List.mem_cons.2 (.inl (List.cons.inj h).1.symm)) h'
  | x :: a, y :: a', _, _, h1, h2, h => by
    obtain ⟨e1, e2⟩ := List.cons.inj h
    obtain ⟨e3, e4⟩ := cut_unique (fun hm => h1 (List.mem_cons_of_mem _ hm)) (fun hm => h2 (List.mem_cons_of_mem _ hm)) e2
    exact ⟨by rw [e1, e3], e4⟩

/-- C55: the error text tells the code and the description. -/
theorem C55_error_text_unique {e e' : OAuthError} (h : e.error = e'.error) :
    e.type.string = e'.type.string ∧ e.description = e'.description := by
  have hc : ∀ t : OAuthErrorType, (58 : UInt8) ∉ t.string := by
    intro t; cases t <;> simp only [OAuthErrorType.string] <;> decide
  have h1 := C55_error_text e
  have h2 := C55_error_text e'
  rw [← h] at h2
  generalize e.error = x at h1 h2
  have hx := hc e.type
  have hx' := hc e'.type
  generalize e.type.string = c at *
  generalize e'.type.string = c' at *
  generalize e.description = d at *
  generalize e'.description = d' at *
  cases h1 with
  | code =>
    cases h2 with
    | code => exact ⟨rfl, rfl⟩
    | described => exact absurd (by simp) hx
  | described _ _ hn =>
    generalize hy : c ++ b!": " ++ d = y at h2
    cases h2 with
    | code => subst hy; exact absurd (by simp) hx'
    | described =>
      simp only [List.append_assoc] at hy
      obtain ⟨rfl, h3⟩ := cut_unique hx hx' hy
      exact ⟨rfl, (List.cons.inj h3).2⟩

example : ErrorText (OAuthError.new .invalidScope b!"no: scope").error b!"invalid_scope" b!"no: scope" := C55_error_text _
example : (OAuthError.new .invalidScope b!"no").error = b!"invalid_scope: no" := by decide

/-! ## C66: the challenge of the token endpoint -/

open TokenEndpoint

theorem qchars_self : ∀ {raw s : GoStr}, QChars raw s → s.length ≤ raw.length ∧ (raw = s → ∀ c ∈ s, IsQdtext c) := by
  intro raw s h
  induction h with
  | nil => exact ⟨Nat.le_refl _, fun _ c hc => by cases hc⟩
  | plain hc _ ih =>
    refine ⟨Nat.succ_le_succ ih.1, fun he x hx => ?_⟩
    rcases List.mem_cons.1 hx with rfl | hx
    · exact hc
    · exact ih.2 (List.cons.inj he).2 x hx
  | pair _ _ ih =>
    refine ⟨Nat.le_succ_of_le (Nat.succ_le_succ ih.1), fun he => ?_⟩
    have := congrArg List.length he
    simp only [List.length_cons] at this
    have := ih.1
    omega

/-- Exactly when the challenge names the realm: when the realm needs no quoting. -/
theorem basic_challenge (realm : GoStr) :
    Challenge (b!"Basic realm=\"" ++ realm ++ b!"\"") b!"Basic" [(b!"realm", realm)] ↔ ∀ c ∈ realm, IsQdtext c := by
  constructor
  · rintro ⟨t, he, _, ht⟩
    have e1 : b!"Basic realm=\"" ++ realm ++ b!"\"" = b!"Basic" ++ 32 :: (b!"realm" ++ 61 :: (34 :: realm ++ [34])) := by simp
    rw [e1] at he
    have e2 := (List.cons.inj (List.append_cancel_left he)).2
    subst e2
    generalize hq : b!"realm" ++ 61 :: (34 :: realm ++ [34]) = x at ht
    generalize hl : [(b!"realm", realm)] = l at ht
    cases ht with
    | one h =>
      cases hl
      obtain ⟨q, _, hn, ⟨raw, rfl, hr⟩, he⟩ := h
      rw [he] at hq
      have e3 := (List.cons.inj (List.append_cancel_left hq)).2
      have e4 : realm = raw := by
        have := (List.cons.inj e3).2
        exact List.append_cancel_right this
      exact (qchars_self hr).2 e4.symm
    | cons _ _ h => cases hl; cases h
  · intro h
    refine ⟨b!"realm" ++ 61 :: (34 :: realm ++ [34]), by simp, by decide, .one ⟨34 :: realm ++ [34], by decide, ?_, ?_, rfl⟩⟩
    · unfold IsNameChar; decide
    · exact ⟨realm, rfl, by simpa using qchars_plain realm h .nil⟩

variable {cfg : TokenCfg} {lib : Lib} {r : Req} {t : List Event} {resp : HttpResp}

/-- C66: when the realm contains no quote, backslash or control character, every 401 answer carries
exactly one challenge, `Basic` with that realm. -/
theorem C66_challenge_partial (hb : AllBuiltIn lib cfg) (hr : ∀ c ∈ cfg.realm, IsQdtext c)
    (h : Steps (handler cfg lib r) t) (hx : wrote resp ∈ t) (h401 : resp.status = 401) :
    ∃ v, resp.headers.filter (fun kv => kv.1 == b!"WWW-Authenticate") = [(b!"WWW-Authenticate", v)] ∧
      Challenge v b!"Basic" [(b!"realm", cfg.realm)] := by
  rcases C06_well_formed hb h hx with ⟨_, h'⟩ | ⟨_, _, hp⟩
  · rw [h401] at h'; cases h'
  · rw [if_pos h401] at hp
    refine ⟨_, ?_, (basic_challenge cfg.realm).2 hr⟩
    have := hp.filter (fun kv => kv.1 == b!"WWW-Authenticate")
    rw [List.filter_append] at this
    exact List.perm_singleton.1 this

/-- The hypothesis cannot be dropped: the realm is not quoted. -/
theorem C66_false : ∃ (cfg : TokenCfg) (lib : Lib) (r : Req) (t : List Event) (resp : HttpResp) (v : GoStr),
    AllBuiltIn lib cfg ∧ Steps (handler cfg lib r) (t ++ [wrote resp]) ∧ resp.status = 401 ∧
    (b!"WWW-Authenticate", v) ∈ resp.headers ∧ ¬ Challenge v b!"Basic" [(b!"realm", cfg.realm)] := by
  let cfg : TokenCfg := { Sample.tokenCfg with realm := b!"a\"b" }
  refine ⟨cfg, Sample.lib, { Sample.post Sample.codeBody with headers := [] }, ?_⟩
  obtain ⟨pre, resp, h, hs⟩ := ({} : Sample.World).steps
    (p := handler cfg Sample.lib { Sample.post Sample.codeBody with headers := [] }) (n := 401) (by decide +kernel)
  have hb : AllBuiltIn Sample.lib cfg := sample_allBuiltIn
  have hm : { Sample.post Sample.codeBody with headers := [] }.method = b!"POST" := rfl
  refine ⟨pre, resp, b!"Basic realm=\"" ++ cfg.realm ++ b!"\"", hb, h, hs, ?_, ?_⟩
  · rcases C06_well_formed hb h (List.mem_append_right _ List.mem_cons_self) with ⟨h', _⟩ | ⟨_, _, hp⟩
    · exact absurd hm h'
    · rw [if_pos hs] at hp
      exact hp.mem_iff.2 (List.mem_append_right _ List.mem_cons_self)
  · rw [basic_challenge]
    intro hc
    have := hc 34 (by decide)
    revert this
    unfold IsQdtext
    decide

example : ∀ c ∈ Sample.tokenCfg.realm, IsQdtext c := by unfold IsQdtext; decide

/-! ## C67: refusals of the token endpoint -/

/-- The codes of a refused token request (RFC 6749, section 5.2, and server_error). -/
def refusalCodes : List GoStr :=
  [b!"invalid_request", b!"invalid_client", b!"invalid_grant", b!"unauthorized_client", b!"unsupported_grant_type",
   b!"invalid_scope", b!"server_error"]

/-- C67: the answer to a refused POST is a JSON object whose `error` is one of the standard codes; the
status is 500 exactly for server_error, 401 only for invalid_client, and 400 otherwise; `error_uri`, if
any, is what the configured builder gives for this error (if that is valid UTF-8, JSON carries nothing else). -/
theorem C67_refusal (hb : AllBuiltIn lib cfg) (h : Steps (handler cfg lib r) t) (hx : wrote resp ∈ t)
    (hm : r.method = b!"POST") (h200 : resp.status ≠ 200) :
    ∃ (e : OAuthErrorType) (d u d' u' : GoStr), e.string ∈ refusalCodes ∧
      (resp.status = 500 ↔ e.string = b!"server_error") ∧
      (resp.status = 401 → e.string = b!"invalid_client" ∧ d = []) ∧
      (resp.status = 400 ∨ resp.status = 401 ∨ resp.status = 500) ∧
      u = (match cfg.errorURIBuilder with | some f => f e | none => []) ∧ (ValidUtf8 u → u' = u) ∧
      JsonText resp.body (.obj (
        [(b!"error", .str e.string)] ++ (if d = [] then [] else [(b!"error_description", .str d')])
        ++ (if u = [] then [] else [(b!"error_uri", .str u')]))) := by
  have fin : ∀ e : OAuthError, e.uri = [] → ∃ d' u',
      (ValidUtf8 (match cfg.errorURIBuilder with | some f => f e.type | none => []) →
        u' = (match cfg.errorURIBuilder with | some f => f e.type | none => [])) ∧ JsonText (withURI cfg e).json (.obj (
        [(b!"error", .str e.type.string)] ++ (if e.description = [] then [] else [(b!"error_description", .str d')])
        ++ (if (match cfg.errorURIBuilder with | some f => f e.type | none => []) = [] then []
          else [(b!"error_uri", .str u')]))) := by
    intro e he
    obtain ⟨d', u', _, hu', hj⟩ := C55_json_any (withURI cfg e)
    refine ⟨d', u', ?_, ?_⟩
    · rw [show (match cfg.errorURIBuilder with | some f => f e.type | none => []) = (withURI cfg e).uri by
        unfold withURI; rw [if_pos he]; cases cfg.errorURIBuilder <;> simp [he]]
      exact hu'
    unfold withURI at hj ⊢
    rw [if_pos he] at hj ⊢
    cases hu : cfg.errorURIBuilder with
    | none => rw [hu] at hj; dsimp only at hj ⊢; rw [he] at hj; exact hj
    | some f => rw [hu] at hj; exact hj
  cases tokenWrite hb h hx hm with
  | granted res => exact absurd rfl h200
  | @failed e he =>
    obtain ⟨d', u', hu', hj⟩ := fin e he.2
    have ht : e.type ∈ [OAuthErrorType.invalidGrant, .invalidRequest, .invalidScope, .invalidClient, .serverError,
        .unauthorizedClient, .unsupportedGrantType] := by
      rcases he.1 with h | h | h
      · exact List.mem_append_left [_, _] h
      · rw [h]; decide
      · rw [h]; decide
    have facts : ∀ t ∈ [OAuthErrorType.invalidGrant, .invalidRequest, .invalidScope, .invalidClient, .serverError,
        .unauthorizedClient, .unsupportedGrantType], t.string ∈ refusalCodes ∧
        (t.statusCode = 500 ↔ t.string = b!"server_error") ∧ t.statusCode ≠ 401 ∧
        (t.statusCode = 400 ∨ t.statusCode = 401 ∨ t.statusCode = 500) := by decide
    obtain ⟨f1, f2, f3, f4⟩ := facts _ ht
    exact ⟨e.type, e.description, _, d', u', f1, f2, fun h => absurd h f3, f4, rfl, hu', hj⟩
  | challenge =>
    obtain ⟨d', u', hu', hj⟩ := fin (OAuthError.simple .invalidClient) rfl
    exact ⟨.invalidClient, [], _, d', u', by decide,
      show (401 = 500 ↔ OAuthErrorType.string .invalidClient = b!"server_error") by decide, fun _ => ⟨rfl, rfl⟩, by simp, rfl, hu', hj⟩

example : ({} : Sample.World).status (handler Sample.tokenCfg Sample.lib
    { Sample.post Sample.codeBody with headers := [] }) = some 401 := by decide +kernel

end Goidc.Props
