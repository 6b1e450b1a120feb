import Verif.Lemmas.AuthFacts
import Verif.Lemmas.Decimal
import Verif.Lemmas.Int64
import Verif.Sample.World

/-! # C30–C33: where authorization responses go and what they carry -/

namespace Goidc.Props

open Spec AuthzEndpoint

variable {policy : Policy} {lib : Lib} {r : Req} {t pre : List Event} {resp : HttpResp} {b : Bool}

/-- A response written at some point of a run. -/
theorem steps_wrote {α : Type} {p : Prog α} (h : Steps p t) (hw : wrote resp ∈ t) :
    ∃ pre post, t = pre ++ wrote resp :: post ∧ Steps p (pre ++ [wrote resp]) := by
  obtain ⟨pre, post, rfl⟩ := List.append_of_mem hw
  exact ⟨pre, post, rfl, steps_of_append (t' := post) (by simpa using h)⟩

/-! ## A concrete request -/

/-- A GET to the authorization endpoint. -/
def authGet (params : Params) : Req where
  method := b!"GET"
  path := b!"/authorize"
  headers := []
  body := []
  query := (b!"client_id", b!"client") :: (b!"redirect_uri", b!"https://app/cb") :: params

/-- A world in which the login user has already consented to `openid`. -/
def consentedWorld : Sample.World := { info := (some { Sample.info with scope := b!"openid" }, none) }

/-- A code request with a state that needs escaping. -/
def codeGet : Req := authGet [(b!"response_type", b!"code"), (b!"scope", b!"openid"), (b!"state", b!"a&b=c d")]

/-- A request for everything at once. -/
def hybridGet : Req := authGet [(b!"response_type", b!"code id_token token"), (b!"scope", b!"openid"),
  (b!"nonce", b!"n"), (b!"state", b!"s")]

/-- An implicit request. -/
def implicitGet : Req := authGet [(b!"response_type", b!"id_token token"), (b!"scope", b!"openid"),
  (b!"nonce", b!"n"), (b!"state", b!"s")]

/-- Whether the run returned true. -/
def returnedTrue {α : Type} : List Event × Outcome Bool × α → Bool
  | (_, .ok true, _) => true
  | _ => false

/-- A run in a world that returned true and ended with a response. -/
theorem world_success {w : Sample.World} {p : Prog Bool} {P : HttpResp → Bool}
    (h1 : returnedTrue (w.run p) = true) (h2 : (lastWrite (w.run p).1).any P = true) :
    ∃ pre resp, Runs p (pre ++ [wrote resp]) (.ok true) ∧ P resp = true := by
  have hr := w.runs p
  cases hl : lastWrite (w.run p).1 with
  | none => rw [hl] at h2; cases h2
  | some resp =>
    rw [hl] at h2
    obtain ⟨pre, hp⟩ := lastWrite_eq hl
    rw [hp] at hr
    refine ⟨pre, resp, ?_, h2⟩
    cases ho : (w.run p).2.1 with
    | panic => unfold returnedTrue at h1; rw [show w.run p = ((w.run p).1, (w.run p).2.1, (w.run p).2.2) from rfl, ho] at h1; cases h1
    | ok b =>
      cases b with
      | false => unfold returnedTrue at h1; rw [show w.run p = ((w.run p).1, (w.run p).2.1, (w.run p).2.2) from rfl, ho] at h1; cases h1
      | true => rw [ho] at hr; exact hr

theorem sample_code_success : ∃ pre resp,
    Runs (handleRequest .default Sample.lib codeGet) (pre ++ [wrote resp]) (.ok true) ∧
    decide ((b!"Location", b!"https://app/cb?code=code&state=a%26b%3Dc+d") ∈ resp.headers) = true :=
  world_success (w := consentedWorld) (P := fun resp =>
    decide ((b!"Location", b!"https://app/cb?code=code&state=a%26b%3Dc+d") ∈ resp.headers))
    (by decide +kernel) (by decide +kernel)

theorem sample_hybrid_success : ∃ pre resp,
    Runs (handleRequest .default Sample.lib hybridGet) (pre ++ [wrote resp]) (.ok true) ∧
    decide ((b!"Location", b!"https://app/cb#access_token=at&code=code&expires_in=3600&id_token=signed&scope=openid&state=s&token_type=bearer") ∈ resp.headers) = true :=
  world_success (w := consentedWorld) (P := fun resp => decide ((b!"Location", b!"https://app/cb#access_token=at&code=code&expires_in=3600&id_token=signed&scope=openid&state=s&token_type=bearer") ∈ resp.headers))
    (by decide +kernel) (by decide +kernel)

/-! ## C30 -/

/-- C30: whatever is written for an authorization request, at whatever point of whatever run, delivers
parameters to the request's `redirect_uri`, and before it the application returned a client for the
request's `client_id` that accepts this URI. -/
theorem C30_not_open_redirector (h : Steps (handleRequest policy lib r) t) (hw : wrote resp ∈ t) :
    ∃ pre post clnt params ch, t = pre ++ wrote resp :: post ∧ FoundClient r clnt pre ∧
      clnt.canUseRedirectURI (r.formValue b!"redirect_uri") = true ∧
      Delivers resp (r.formValue b!"redirect_uri") params ch := by
  obtain ⟨pre, post, rfl, hs⟩ := steps_wrote h hw
  rcases handleRequest_wrote hs with ⟨c, typ, desc, ch, _, hf, ha, hd⟩ | ⟨c, f, req, info, b, w, a, ps, rfl, _, hs⟩
  · exact ⟨pre, post, c, _, ch, rfl, hf, ha, hd⟩
  · exact ⟨_, post, c, ps, _, rfl, foundClient_mono hs.found (fun e he => by simp [he]), hs.accepts, hs.delivers⟩

theorem esc_stop (s : GoStr) (c : UInt8) (hc : c = 63 ∨ c = 35) : c ∈ hexEscapeNonASCII s ↔ c ∈ s := by
  have key : ∀ x : UInt8, (63 ∈ hexEscapeNonASCII [x] ↔ x = 63) ∧ (35 ∈ hexEscapeNonASCII [x] ↔ x = 35) := by
    apply forall_byte; decide +kernel
  induction s with
  | nil => simp [hexEscapeNonASCII]
  | cons x xs ih =>
    rw [show x :: xs = [x] ++ xs from rfl, hexEscapeNonASCII_append, List.mem_append, List.mem_append]
    refine or_congr ?_ ih
    rcases hc with rfl | rfl
    · exact (key x).1.trans (by simp [eq_comm])
    · exact (key x).2.trans (by simp [eq_comm])

theorem encodes_ascii {q : GoStr} {ps : Params} (h : Encodes q ps) : ∀ c ∈ q, c.toNat < 128 := by
  have key : ∀ c : UInt8, isUnreserved c = true ∨ c = 37 ∨ c = 43 ∨ c = 61 ∨ c = 38 → c.toNat < 128 := by
    apply forall_byte; decide +kernel
  exact fun c hc => key c (h.2 c hc)

theorem encodes_no_stop {q : GoStr} {ps : Params} (h : Encodes q ps) : 63 ∉ q ∧ 35 ∉ q := by
  constructor <;> intro hc
  · exact absurd (h.2 _ hc) (by decide)
  · exact absurd (h.2 _ hc) (by decide)

theorem esc_target {uri q : GoStr} {c : UInt8} {ps : Params} (hq : Encodes q ps) (hc : c.toNat < 128) :
    hexEscapeNonASCII (uri ++ c :: q) = hexEscapeNonASCII uri ++ c :: q := by
  rw [hexEscapeNonASCII_append, hexEscapeNonASCII_ascii (s := c :: q)]
  intro x hx
  rcases List.mem_cons.1 hx with rfl | hx
  · exact hc
  · exact encodes_ascii hq x hx

/-- The only `Location` of a redirect. -/
theorem redirectsTo_location {target loc : GoStr} (h : RedirectsTo resp target)
    (hl : (b!"Location", loc) ∈ resp.headers) : loc = hexEscapeNonASCII target := by
  have hm : (b!"Location", loc) ∈ resp.headers.filter (fun kv => kv.1 == b!"Location") :=
    List.mem_filter.2 ⟨hl, by simp⟩
  rw [h.2.1] at hm
  simpa using hm

theorem delivers_location {uri loc : GoStr} {params : Params} {ch : Channel} (h : Delivers resp uri params ch)
    (hl : (b!"Location", loc) ∈ resp.headers) (hch : ch ≠ .form) :
    ∃ c q, Encodes q params ∧ loc = hexEscapeNonASCII uri ++ c :: q ∧
      ((ch = .query ∧ (HasQuery uri ∧ c = 38 ∨ ¬ HasQuery uri ∧ c = 63)) ∨
       (ch = .fragment ∧ (HasFragment uri ∧ c = 38 ∨ ¬ HasFragment uri ∧ c = 35))) := by
  cases ch with
  | form => exact absurd rfl hch
  | query =>
    obtain ⟨c, q, he, hr, hc⟩ := h
    have h7 : c.toNat < 128 := by rcases hc with ⟨_, rfl⟩ | ⟨_, rfl⟩ <;> decide
    exact ⟨c, q, he, by rw [redirectsTo_location hr hl, esc_target he h7], .inl ⟨rfl, hc⟩⟩
  | fragment =>
    obtain ⟨c, q, he, hr, hc⟩ := h
    have h7 : c.toNat < 128 := by rcases hc with ⟨_, rfl⟩ | ⟨_, rfl⟩ <;> decide
    exact ⟨c, q, he, by rw [redirectsTo_location hr hl, esc_target he h7], .inr ⟨rfl, hc⟩⟩

theorem takeWhile_append_stop {p : UInt8 → Bool} : ∀ {a b : GoStr}, (∃ x ∈ a, p x = false) →
    (a ++ b).takeWhile p = a.takeWhile p
  | [], _, h => by simp at h
  | x :: xs, b, h => by
    rw [List.cons_append]
    cases hx : p x with
    | false => simp [hx]
    | true =>
      have h' : ∃ y ∈ xs, p y = false := by
        obtain ⟨y, hy, hp⟩ := h
        rcases List.mem_cons.1 hy with rfl | hy
        · rw [hx] at hp; cases hp
        · exact ⟨y, hy, hp⟩
      simp [hx, takeWhile_append_stop h']

theorem takeWhile_stop_cons {p : UInt8 → Bool} {c : UInt8} (hc : p c = false) : ∀ {a b : GoStr},
    (a ++ c :: b).takeWhile p = a.takeWhile p
  | [], b => by simp [hc]
  | x :: xs, b => by
    rw [List.cons_append]
    cases hx : p x with
    | false => simp [hx]
    | true => simp [hx, takeWhile_stop_cons hc]

/-- The part of a URL before any `?` or `#`: scheme, host, port and path. -/
def resource (u : GoStr) : GoStr := u.takeWhile fun c => c != 63 && c != 35

/-- C30: a redirect leads to the scheme, host and path of the request's `redirect_uri` (with bytes
outside ASCII percent-escaped); only query or fragment differ. -/
theorem C30_same_resource (h : Steps (handleRequest policy lib r) t) (hw : wrote resp ∈ t) {loc : GoStr}
    (hl : (b!"Location", loc) ∈ resp.headers) :
    resource loc = resource (hexEscapeNonASCII (r.formValue b!"redirect_uri")) := by
  obtain ⟨_, _, _, params, ch, _, _, _, hd⟩ := C30_not_open_redirector h hw
  cases ch with
  | form =>
    obtain ⟨_, _, _, _, hs, _⟩ := hd
    exact absurd rfl (hs _ hl)
  | query =>
    obtain ⟨c, q, he, rfl, hc⟩ := delivers_location hd hl (by simp)
    rcases hc with ⟨_, ⟨hq, rfl⟩ | ⟨_, rfl⟩⟩ | ⟨h, _⟩
    · apply takeWhile_append_stop
      obtain ⟨base, q', rest, hu, _⟩ := hq
      exact ⟨63, (esc_stop _ 63 (.inl rfl)).2 (by rw [hu]; simp), rfl⟩
    · exact takeWhile_stop_cons rfl
    · cases h
  | fragment =>
    obtain ⟨c, q, he, rfl, hc⟩ := delivers_location hd hl (by simp)
    rcases hc with ⟨h, _⟩ | ⟨_, ⟨hq, rfl⟩ | ⟨_, rfl⟩⟩
    · cases h
    · apply takeWhile_append_stop
      obtain ⟨base, f, hu, _⟩ := hq
      exact ⟨35, (esc_stop _ 35 (.inr rfl)).2 (by rw [hu]; simp), rfl⟩
    · exact takeWhile_stop_cons rfl


/-- A non-trivial case: the redirect of `sample_code_success` has the resource of the redirect URI. -/
example : resource b!"https://app/cb?code=code&state=a%26b%3Dc+d" = b!"https://app/cb" := by decide +kernel

/-! ## C31 -/

/-- What a `state` parameter should look like: the request's, once, if it is not empty. -/
def stateValues (state : GoStr) : List GoStr := if state = [] then [] else [state]

theorem valuesOf_append (a b : Params) (k : GoStr) : valuesOf (a ++ b) k = valuesOf a k ++ valuesOf b k := by
  simp [valuesOf]

theorem valuesOf_cons_ne {k k' v : GoStr} {ps : Params} (h : k' ≠ k) : valuesOf ((k', v) :: ps) k = valuesOf ps k := by
  simp [valuesOf, h]

theorem valuesOf_nil (k : GoStr) : valuesOf [] k = [] := rfl

theorem errorResponse_state (typ desc state : GoStr) :
    valuesOf (errorResponse typ desc state) b!"state" = stateValues state := by
  unfold errorResponse stateValues
  rw [valuesOf_cons_ne (by decide), valuesOf_append]
  by_cases hd : desc = [] <;> by_cases hs : state = [] <;> simp [hd, hs, valuesOf] <;> decide

theorem stateParam_state (req : Request) : valuesOf (stateParam req) b!"state" = stateValues req.state := by
  unfold stateParam stateValues
  by_cases hs : req.state = [] <;> simp [hs, valuesOf]

theorem scopeParam_other {req : Request} {k : GoStr} (hk : b!"scope" ≠ k) : valuesOf (scopeParam req) k = [] := by
  unfold scopeParam
  split
  · rfl
  · rw [valuesOf_cons_ne hk]; rfl

theorem tokenPart_other {info f key t atk ps} {k : GoStr} (h : TokenPart info f key t atk ps)
    (h1 : b!"access_token" ≠ k) (h2 : b!"token_type" ≠ k) (h3 : key ≠ k) : valuesOf ps k = [] := by
  rcases h with ⟨_, tk, _, _, rfl⟩ | ⟨_, _, _, rfl⟩
  · rw [valuesOf_cons_ne h1, valuesOf_cons_ne h2, valuesOf_cons_ne h3]; rfl
  · rfl

theorem idPart_other {policy lib clnt info f req at_ atk code t ps} {k : GoStr}
    (h : IdPart policy lib clnt info f req at_ atk code t ps) (h1 : b!"id_token" ≠ k) : valuesOf ps k = [] := by
  rcases h with ⟨_, c, i, iss, now, idt, _, _, _, rfl, _⟩ | ⟨_, _, rfl⟩
  · rw [valuesOf_cons_ne h1]; rfl
  · rfl

theorem completeParts_state {info : Option AuthInfo} {req : Request} {f : Flow} {t : List Event} {ps : Params}
    (h : CompleteParts policy lib info req f t ps) : valuesOf ps b!"state" = stateValues req.state := by
  unfold CompleteParts at h
  cases hty : f.type <;> rw [hty] at h
  · obtain ⟨code, at_, _, rfl⟩ := h
    rw [valuesOf_cons_ne (by decide), stateParam_state]
  · obtain ⟨clnt, t1, atk, p1, at_, t2, p2, h1, h2, _, rfl⟩ := h
    rw [valuesOf_append, valuesOf_append, valuesOf_append, stateParam_state, scopeParam_other (by decide),
      tokenPart_other h1 (by decide) (by decide) (by decide), idPart_other h2 (by decide)]
    simp
  · obtain ⟨code, at_, clnt, t1, atk, p1, t2, p2, h1, h2, _, rfl⟩ := h
    rw [valuesOf_cons_ne (by decide), valuesOf_append, valuesOf_append, valuesOf_append, stateParam_state,
      scopeParam_other (by decide), tokenPart_other h1 (by decide) (by decide) (by decide), idPart_other h2 (by decide)]
    simp
  · exact h.elim

/-- C31: every response of `HandleRequest` carries the request's `state` exactly once, unchanged, or not
at all when it is empty. -/
theorem C31_state (h : Steps (handleRequest policy lib r) t) (hw : wrote resp ∈ t) :
    ∃ params ch, Delivers resp (r.formValue b!"redirect_uri") params ch ∧
      valuesOf params b!"state" = stateValues (r.formValue b!"state") := by
  obtain ⟨pre, post, rfl, hs⟩ := steps_wrote h hw
  rcases handleRequest_wrote hs with ⟨c, typ, desc, ch, _, hf, ha, hd⟩ | ⟨c, f, req, info, b, w, a, ps, rfl, _, hs⟩
  · exact ⟨_, ch, hd, errorResponse_state ..⟩
  · exact ⟨ps, _, hs.delivers, by rw [completeParts_state hs.parts, hs.built.state]⟩

example : ∃ pre resp, Steps (handleRequest .default Sample.lib codeGet) (pre ++ [wrote resp]) ∧
    codeGet.formValue b!"state" = b!"a&b=c d" := by
  obtain ⟨pre, resp, h, _⟩ := sample_code_success
  exact ⟨pre, resp, runs_steps h, by decide +kernel⟩

theorem split_append (sep : UInt8) : ∀ a b : GoStr, split sep (a ++ sep :: b) = split sep a ++ split sep b
  | [], b => by simp [split]
  | c :: cs, b => by
    rw [List.cons_append]
    conv => lhs; unfold split
    conv => rhs; arg 1; unfold split
    rw [split_append sep cs b]
    split
    · rfl
    · cases hs : split sep cs with
      | nil => exact absurd hs (split_ne_nil sep cs)
      | cons x l => rfl

theorem parseQuery_append (a b : GoStr) : parseQuery (a ++ 38 :: b) = parseQuery a ++ parseQuery b := by
  unfold parseQuery
  rw [split_append, List.filterMap_append]

theorem urlParts_rawQuery {u base : GoStr} {q f : Option GoStr} (h : UrlParts u base q f) :
    AuthResponse.rawQuery u = q.getD [] := by
  obtain ⟨h1, h2, h3, rfl⟩ := h
  unfold AuthResponse.rawQuery
  have hb : 35 ∉ base ++ urlPart 63 q := by
    cases q with
    | none => simpa [urlPart] using h2
    | some q => simp [urlPart, h2, h3 q rfl]
  have hc : (cut 35 (base ++ urlPart 63 q ++
      urlPart 35 f)).1 = base ++ urlPart 63 q := by
    cases f with
    | none => rw [urlPart.eq_1, List.append_nil, cut_none 35 _ hb]
    | some f => rw [urlPart.eq_2, cut_append 35 f _ hb]
  rw [hc]
  cases q with
  | none => rw [urlPart.eq_1, List.append_nil, cut_none 63 _ h1]; rfl
  | some q => rw [urlPart.eq_2, cut_append 63 q _ h1]; rfl

theorem urlParts_fragment {u base : GoStr} {q f : Option GoStr} (h : UrlParts u base q f) :
    AuthResponse.fragment u = f.getD [] := by
  obtain ⟨h1, h2, h3, rfl⟩ := h
  unfold AuthResponse.fragment
  have hb : 35 ∉ base ++ urlPart 63 q := by
    cases q with
    | none => simpa [urlPart] using h2
    | some q => simp [urlPart, h2, h3 q rfl]
  cases f with
  | none => rw [urlPart.eq_1, List.append_nil, cut_none 35 _ hb]; rfl
  | some f => rw [urlPart.eq_2, cut_append 35 f _ hb]; rfl

/-- The parameters already present in a URI's query or fragment. -/
def oldParams (q : Option GoStr) : Params := (q.map fun q => parseQuery (hexEscapeNonASCII q)).getD []

/-- C31: what a client reads from a query redirect.  For a redirect URI without fragment, the target
has the same base, and its query holds the URI's own parameters followed by exactly the response
parameters. -/
theorem C31_location_query {uri base loc : GoStr} {q : Option GoStr} {params : Params}
    (h : Delivers resp uri params .query) (hl : (b!"Location", loc) ∈ resp.headers)
    (hu : UrlParts uri base q none) (hq : q ≠ some []) :
    ∃ q', UrlParts loc (hexEscapeNonASCII base) (some q') none ∧
      (parseQuery q').Perm (oldParams q ++ params) := by
  obtain ⟨c, e, he, rfl, hc0⟩ := delivers_location h hl (by simp)
  have hc : (HasQuery uri ∧ c = 38) ∨ (¬ HasQuery uri ∧ c = 63) := by
    rcases hc0 with ⟨_, h⟩ | ⟨h, _⟩
    · exact h
    · cases h
  clear hc0
  rw [hasQuery_iff, urlParts_rawQuery hu] at hc
  have hn := encodes_no_stop he
  obtain ⟨h1, h2, h3, rfl⟩ := hu
  have e1 : 63 ∉ hexEscapeNonASCII base := fun h => h1 ((esc_stop base 63 (.inl rfl)).1 h)
  have e2 : 35 ∉ hexEscapeNonASCII base := fun h => h2 ((esc_stop base 35 (.inr rfl)).1 h)
  cases q with
  | none =>
    rcases hc with ⟨h, _⟩ | ⟨_, rfl⟩
    · exact absurd rfl h
    · refine ⟨e, ⟨e1, e2, ?_, by simp [urlPart]⟩, he.1⟩
      rintro q' ⟨⟩; exact hn.2
  | some q =>
    rcases hc with ⟨_, rfl⟩ | ⟨h, _⟩
    · refine ⟨hexEscapeNonASCII q ++ 38 :: e, ⟨e1, e2, ?_, ?_⟩, ?_⟩
      · rintro q' ⟨⟩
        intro hm
        rcases List.mem_append.1 hm with hm | hm
        · exact h3 q rfl ((esc_stop q 35 (.inr rfl)).1 hm)
        · rcases List.mem_cons.1 hm with hm | hm
          · exact absurd hm (by decide)
          · exact hn.2 hm
      · rw [urlPart.eq_2, urlPart.eq_1, List.append_nil, hexEscapeNonASCII_append, show (63 :: q : GoStr) = [63] ++ q from rfl, hexEscapeNonASCII_append]
        simp [hexEscapeNonASCII, urlPart]
      · rw [parseQuery_append]
        exact he.1.append_left _
    · refine absurd h ?_
      cases q with
      | nil => exact absurd rfl hq
      | cons x xs => simp

/-- C31: what a client reads from a fragment redirect. -/
theorem C31_location_fragment {uri base loc : GoStr} {q f : Option GoStr} {params : Params}
    (h : Delivers resp uri params .fragment) (hl : (b!"Location", loc) ∈ resp.headers)
    (hu : UrlParts uri base q f) (hf : f ≠ some []) :
    ∃ f', UrlParts loc (hexEscapeNonASCII base) (q.map hexEscapeNonASCII) (some f') ∧
      (parseQuery f').Perm (oldParams f ++ params) := by
  obtain ⟨c, e, he, rfl, hc0⟩ := delivers_location h hl (by simp)
  have hc : (HasFragment uri ∧ c = 38) ∨ (¬ HasFragment uri ∧ c = 35) := by
    rcases hc0 with ⟨h, _⟩ | ⟨_, h⟩
    · cases h
    · exact h
  clear hc0
  rw [hasFragment_iff, urlParts_fragment hu] at hc
  obtain ⟨h1, h2, h3, rfl⟩ := hu
  have e1 : 63 ∉ hexEscapeNonASCII base := fun h => h1 ((esc_stop base 63 (.inl rfl)).1 h)
  have e2 : 35 ∉ hexEscapeNonASCII base := fun h => h2 ((esc_stop base 35 (.inr rfl)).1 h)
  have e3 : ∀ q', q.map hexEscapeNonASCII = some q' → 35 ∉ q' := by
    intro q' hq'
    cases q with
    | none => cases hq'
    | some q => cases hq'; exact fun h => h3 q rfl ((esc_stop q 35 (.inr rfl)).1 h)
  have e4 : hexEscapeNonASCII (urlPart 63 q) =
      urlPart 63 (q.map hexEscapeNonASCII) := by
    cases q with
    | none => rfl
    | some q => simp [hexEscapeNonASCII, urlPart]
  cases f with
  | none =>
    rcases hc with ⟨h, _⟩ | ⟨_, rfl⟩
    · exact absurd rfl h
    · refine ⟨e, ⟨e1, e2, e3, ?_⟩, he.1⟩
      rw [urlPart.eq_1, List.append_nil, hexEscapeNonASCII_append, e4]
      rfl
  | some f =>
    rcases hc with ⟨_, rfl⟩ | ⟨h, _⟩
    · refine ⟨hexEscapeNonASCII f ++ 38 :: e, ⟨e1, e2, e3, ?_⟩, ?_⟩
      · rw [hexEscapeNonASCII_append, hexEscapeNonASCII_append, e4]
        rw [urlPart.eq_2, show (35 :: f : GoStr) = [35] ++ f from rfl, hexEscapeNonASCII_append]
        simp [hexEscapeNonASCII, urlPart]
      · rw [parseQuery_append]
        exact he.1.append_left _
    · refine absurd h ?_
      cases f with
      | nil => exact absurd rfl hf
      | cons x xs => simp

/-- The sample redirect, read by a client. -/
example : UrlParts b!"https://app/cb" b!"https://app/cb" none none ∧
    UrlParts b!"https://app/cb?code=code&state=a%26b%3Dc+d" b!"https://app/cb" (some b!"code=code&state=a%26b%3Dc+d") none ∧
    parseQuery b!"code=code&state=a%26b%3Dc+d" = [(b!"code", b!"code"), (b!"state", b!"a&b=c d")] := by
  refine ⟨⟨by decide, by decide, by simp, by decide⟩, ⟨by decide, by decide, ?_, by decide⟩, by decide +kernel⟩
  rintro q ⟨⟩; decide

/-- The hypothesis `q ≠ some []` is needed: a registered URI ending in `?` gets a second `?`. -/
theorem C31_empty_query_quirk : ∃ r : HttpResp,
    Delivers r b!"https://app/cb?" [(b!"code", b!"c")] .query ∧
      (b!"Location", b!"https://app/cb??code=c") ∈ r.headers := by
  refine ⟨AuthResponse.redirectResp codeGet b!"https://app/cb??code=c", ⟨63, b!"code=c", ?_, ?_, .inr ⟨?_, rfl⟩⟩, ?_⟩
  · exact encodes_valuesEncode [(b!"code", b!"c")]
  · exact redirectsTo_redirectResp codeGet b!"https://app/cb??code=c"
  · rw [hasQuery_iff]; decide
  · decide +kernel

/-! ## C32 -/

theorem strength_level {m d : GoStr} (h : ResponseMode.compareSecurityLevel m d = true) :
    strength (channel d) ≤ strength (channel m) := by
  unfold ResponseMode.compareSecurityLevel ResponseMode.securityLevelForMode at h
  unfold channel ResponseMode.query ResponseMode.fragment ResponseMode.formPost at *
  simp only [decide_eq_true_eq] at h
  by_cases a1 : m = b!"query" <;> by_cases a2 : m = b!"fragment" <;> by_cases a3 : m = b!"form_post" <;>
  by_cases b1 : d = b!"query" <;> by_cases b2 : d = b!"fragment" <;> by_cases b3 : d = b!"form_post" <;>
  simp_all [strength]

/-- C32: with the security level check a success response is never delivered over a weaker channel
than the policy's default for the flow of the request's `response_type`. -/
theorem C32_not_weaker (h : Runs (handleRequest policy lib r) (pre ++ [wrote resp]) (.ok true))
    (hp : policy.requireSecurityLevelCheck = true) :
    ∃ f params ch, Asks (r.formValue b!"response_type") f ∧
      Delivers resp (r.formValue b!"redirect_uri") params ch ∧
      strength (channel (if f.type = .authorizationCode then policy.defaultCodeMode
        else policy.defaultImplicitMode)) ≤ strength ch := by
  obtain ⟨c, f, req, info, b, w, a, ps, _, hs⟩ := handleRequest_true h
  refine ⟨f, ps, _, asks_iff.2 hs.built.judged, hs.delivers, ?_⟩
  have hd : defaultMode policy f = if f.type = .authorizationCode then policy.defaultCodeMode
      else policy.defaultImplicitMode := by
    have h3 := (C47_accepted_tokens (fields_iff.2 rfl) hs.built.judged).2.2.1
    unfold defaultMode
    cases hf : f.type <;> simp_all
  rw [← hd]
  exact strength_level (hs.built.modeLevel hp)

/-- C32: under the default policy nothing of an implicit or hybrid success response travels in the
query: it is a form, or the redirect URI is followed by the fragment (for a redirect URI without `#`). -/
theorem C32_default_no_query (h : Runs (handleRequest .default lib r) (pre ++ [wrote resp]) (.ok true))
    (hf : ∀ f, Asks (r.formValue b!"response_type") f → f.type ≠ .authorizationCode)
    (hu : 35 ∉ r.formValue b!"redirect_uri") :
    (∃ fields, PostsTo resp (r.formValue b!"redirect_uri") fields) ∨
    (∃ fragment, 35 ∉ fragment ∧ RedirectsTo resp (r.formValue b!"redirect_uri" ++ 35 :: fragment)) := by
  obtain ⟨f, ps, ch, hj, hd, hs⟩ := C32_not_weaker h rfl
  rw [if_neg (hf f hj)] at hs
  cases ch with
  | query => exact absurd hs (by decide +kernel)
  | form => obtain ⟨fields, _, hp⟩ := hd; exact .inl ⟨fields, hp⟩
  | fragment =>
    obtain ⟨c, q, he, hr, hc⟩ := hd
    refine .inr ⟨q, (encodes_no_stop he).2, ?_⟩
    rcases hc with ⟨⟨base, f', hb, _⟩, _⟩ | ⟨_, rfl⟩
    · exact absurd (by rw [hb]; simp) hu
    · exact hr

example : ∃ pre resp, Runs (handleRequest .default Sample.lib hybridGet) (pre ++ [wrote resp]) (.ok true) ∧
    (∀ f, Asks (hybridGet.formValue b!"response_type") f → f.type ≠ .authorizationCode) ∧
    35 ∉ hybridGet.formValue b!"redirect_uri" := by
  obtain ⟨pre, resp, h, _⟩ := sample_hybrid_success
  refine ⟨pre, resp, h, ?_, by decide +kernel⟩
  intro f hf
  have : Flow.judgeByResponseType (hybridGet.formValue b!"response_type") = some ⟨.hybrid, true, true⟩ := by
    decide +kernel
  rw [asks_iff, this] at hf
  cases hf
  simp

end Goidc.Props
