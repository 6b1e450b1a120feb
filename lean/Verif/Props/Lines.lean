import Verif.Spec.Lines
import Verif.Lemmas.TokenAll
import Verif.Props.ErrorRender
import Verif.Props.LogText
import Verif.Props.AuthComplete
import Verif.Props.Protector

/-! # C104: no request splits a response; C105: no request forges a log line -/

namespace Goidc.Props

open Spec

variable {lib : Lib} {r : Req} {policy : Policy} {t : List Event} {resp : HttpResp}

/-! ## C104: headers -/

/-- A response keeps its headers on their lines. -/
def TidyWrite : Query → Prop
  | .write resp => OneLineHeaders resp
  | _ => True

theorem tidy_issue : ∀ q : Query, q.issues = true → TidyWrite q := by
  intro q hq; cases q <;> first | trivial | simp [Query.issues] at hq

theorem safe_unreserved : ∀ c : UInt8, HeaderSafe (queryEscapeByte c) := by
  have : ∀ c : UInt8, (queryEscapeByte c).all fun x => decide (32 ≤ x.toNat ∧ x.toNat ≠ 127) := by
    intro c
    have h : ∀ n : Fin 256, (queryEscapeByte (UInt8.ofNat n.val)).all fun x => decide (32 ≤ x.toNat ∧ x.toNat ≠ 127) := by
      decide +kernel
    have := h ⟨c.toNat, c.toNat_lt⟩
    simpa using this
  intro c x hx
  simpa using List.all_eq_true.1 (this c) x hx

theorem safe_flatMap {f : UInt8 → GoStr} {s : GoStr} (h : ∀ c ∈ s, HeaderSafe (f c)) : HeaderSafe (s.flatMap f) := by
  intro c hc
  obtain ⟨x, hx, hc⟩ := List.mem_flatMap.1 hc
  exact h x hx c hc

theorem safe_location : HeaderSafe b!"Location" := by unfold HeaderSafe; decide
theorem safe_challenge : HeaderSafe b!"WWW-Authenticate" := by unfold HeaderSafe; decide

theorem safe_queryEscape (s : GoStr) : HeaderSafe (queryEscape s) := safe_flatMap fun c _ => safe_unreserved c

theorem mem_join' {c sep : UInt8} : ∀ {l : List GoStr}, c ∈ join sep l → c = sep ∨ ∃ s ∈ l, c ∈ s
  | [], h => by simp [join] at h
  | [s], h => .inr ⟨s, by simp, by simpa [join] using h⟩
  | s :: s' :: l, h => by
    rw [join] at h
    · simp only [List.mem_append, List.mem_cons] at h
      rcases h with h | h | h
      · exact .inr ⟨s, by simp, h⟩
      · exact .inl h
      · rcases mem_join' h with h | ⟨x, hx, h⟩
        · exact .inl h
        · exact .inr ⟨x, by simp only [List.mem_cons] at hx ⊢; exact .inr hx, h⟩

theorem safe_valuesEncode (ps : Params) : HeaderSafe (valuesEncode ps) := by
  intro c hc
  rcases mem_join' hc with rfl | ⟨s, hs, hc⟩
  · decide
  · obtain ⟨kv, _, rfl⟩ := List.mem_map.1 hs
    simp only [List.mem_append, List.mem_cons] at hc
    rcases hc with hc | rfl | hc
    · exact safe_queryEscape _ c hc
    · decide
    · exact safe_queryEscape _ c hc

theorem safe_hexEscape {s : GoStr} (h : HeaderSafe s) : HeaderSafe (hexEscapeNonASCII s) := by
  refine safe_flatMap fun c hc => ?_
  have hh : ∀ n : Fin 256, 128 ≤ n.val → ∀ x ∈ ([37, hexLower (n.val / 16), hexLower (n.val % 16)] : GoStr), 32 ≤ x.toNat ∧ x.toNat ≠ 127 := by
    decide +kernel
  split
  · intro x hx
    obtain rfl : x = c := by simpa using hx
    exact h x hc
  · exact hh ⟨c.toNat, c.toNat_lt⟩ (by simp; omega)

theorem oneLine_redirect {u : GoStr} (h : HeaderSafe u) : OneLineHeaders (AuthResponse.redirectResp r u) := by
  intro kv hkv
  unfold AuthResponse.redirectResp at hkv
  rcases List.mem_cons.1 hkv with rfl | hkv
  · exact ⟨safe_location, safe_hexEscape h⟩
  · split at hkv
    · obtain rfl := List.mem_singleton.1 hkv
      exact ⟨by unfold HeaderSafe; decide, by unfold HeaderSafe; decide⟩
    · simp at hkv

theorem oneLine_form (doc : GoStr) : OneLineHeaders (AuthResponse.formResp doc) := by
  show ∀ kv ∈ [(b!"Content-Type", b!"text/html; charset=UTF-8"),
      (b!"Cache-Control", b!"no-cache, no-store"), (b!"Pragma", b!"no-cache")], HeaderSafe kv.1 ∧ HeaderSafe kv.2
  unfold HeaderSafe
  decide

theorem safe_parsed {uri : GoStr} (hp : RejectsControl lib) (hf : HeaderSafe (fromFragment uri)) (hu : lib.urlParseOk uri = true) :
    HeaderSafe uri := by
  have := headerSafe_append (hp uri hu) hf
  unfold beforeFragment fromFragment at this
  rwa [List.takeWhile_append_dropWhile] at this

theorem tidy_redirectTo {ty uri ps} (hp : RejectsControl lib) (hf : HeaderSafe (fromFragment uri)) :
    AllQ TidyWrite (AuthResponse.redirectTo lib r ty uri ps) := by
  refine allQ_of_runs fun t o h e he => ?_
  rcases redirectTo_runs h with ⟨_, rfl, _⟩ | ⟨_, hu, c, rfl, hc⟩
  · simp at he
  · obtain rfl := List.mem_singleton.1 he
    refine oneLine_redirect (headerSafe_append (safe_parsed hp hf hu) fun x hx => ?_)
    rcases List.mem_cons.1 hx with rfl | hx
    · cases ty <;> rcases hc with ⟨_, rfl⟩ | ⟨_, rfl⟩ <;> decide
    · exact safe_valuesEncode ps x hx

theorem tidy_front {uri} (hp : RejectsControl lib) (hf : HeaderSafe (fromFragment uri)) : FrontQ TidyWrite lib r uri where
  log _ _ _ := trivial
  send mode ps := by
    unfold AuthResponse.success
    split
    · exact tidy_redirectTo hp hf
    split
    · exact tidy_redirectTo hp hf
    split
    · exact allQ_bind' (allQ_ask trivial) fun _ => allQ_ask (oneLine_form _)
    · exact tidy_redirectTo hp hf
  other q hq _ := by cases q <;> first | trivial | simp [Query.isOutput] at hq

/-- C104: no authorization request puts a control character into a header of its response, unless it comes
in the fragment of a redirect URI the client accepts. -/
theorem C104_authorization_partial (hp : RejectsControl lib) (hf : HeaderSafe (fromFragment (r.formValue b!"redirect_uri")))
    (h : Steps (AuthzEndpoint.handleRequest policy lib r) t) (hw : wrote resp ∈ t) : OneLineHeaders resp :=
  allQ_steps ((tidy_front hp hf).handleRequest tidy_issue) h _ hw

/-- C104: nor does completing a continued request. -/
theorem C104_complete_partial (hp : RejectsControl lib)
    (hf : ∀ req, ⟨.continue_, some (some req)⟩ ∈ t → HeaderSafe (fromFragment req.redirectURI))
    (h : Steps (AuthzEndpoint.completeRequest policy lib r) t) (hw : wrote resp ∈ t) : OneLineHeaders resp :=
  frontQ_complete (P := TidyWrite) tidy_issue h trivial (fun _ _ _ => trivial) (fun req hr => tidy_front hp (hf req hr)) _ hw

/-- C104: nor does cancelling one. -/
theorem C104_cancel_partial (hp : RejectsControl lib)
    (hf : ∀ req, ⟨.continue_, some (some req)⟩ ∈ t → HeaderSafe (fromFragment req.redirectURI))
    (h : Steps (AuthzEndpoint.cancelRequest lib r) t) (hw : wrote resp ∈ t) : OneLineHeaders resp :=
  frontQ_cancel (P := TidyWrite) h trivial (fun _ _ _ => trivial) (fun req hr => tidy_front hp (hf req hr)) _ hw

theorem oneLine_common : ∀ kv ∈ TokenEndpoint.commonHeaders, HeaderSafe kv.1 ∧ HeaderSafe kv.2 := by
  unfold HeaderSafe
  decide

/-- C104: no token request puts a control character into a header of its response; the realm is the
application's. -/
theorem C104_token {cfg : TokenCfg} (hb : AllBuiltIn lib cfg) (hr : HeaderSafe cfg.realm)
    (h : Steps (TokenEndpoint.handler cfg lib r) t) (hw : wrote resp ∈ t) : OneLineHeaders resp := by
  have ho : ∀ gt, TokQ TidyWrite gt := fun gt =>
    ⟨fun _ _ _ => trivial, fun q hq _ => by cases q <;> first | trivial | simp [Query.isOutput] at hq⟩
  refine allQ_steps (P := TidyWrite) (tokQ_handler hb tidy_issue (fun e => ⟨allQ_ask oneLine_common, allQ_ask ?_⟩)
    (fun res => allQ_ask oneLine_common) (fun _ h => by simp at h) (ho _) (fun _ => ho _) fun _ _ => ho _) h _ hw
  intro kv hkv
  rcases List.mem_cons.1 hkv with rfl | hkv
  · exact ⟨safe_challenge, headerSafe_append (headerSafe_append (by unfold HeaderSafe; decide) hr)
      (by unfold HeaderSafe; decide)⟩
  · exact oneLine_common kv hkv

/-- C104: nor does any request to a protected resource, whatever the realm. -/
theorem C104_protector {cfg : ProtectorCfg} {scopes : List (GoStr × List GoStr)}
    (h : Steps (ResourceProtector.validate cfg lib r) t ∨ Steps (ResourceProtector.validateWithScopes cfg lib r scopes) t)
    (hw : wrote resp ∈ t) : OneLineHeaders resp := by
  have := protQ (P := TidyWrite) (lib := lib) (r := r) (cfg := cfg) (fun _ _ _ _ _ => trivial) (fun e => allQ_ask ?_)
    (allQ_ask fun kv hkv => by simp at hkv) (fun q hq => by cases q <;> first | trivial | simp [Query.isOutput] at hq) scopes
  · rcases h with h | h
    · exact allQ_steps this.1 h _ hw
    · exact allQ_steps this.2 h _ hw
  · intro kv hkv
    obtain rfl := List.mem_singleton.1 hkv
    exact ⟨safe_challenge, C55_header_safe _ _ _⟩

/-- A library that rejects control characters where `url.Parse` does. -/
def parsingLib : Lib := { Sample.lib with urlParseOk := fun u => (beforeFragment u).all fun c => 32 ≤ c.toNat && c.toNat ≠ 127 }

theorem parsing_rejects : RejectsControl parsingLib := by
  intro u hu c hc
  have := List.all_eq_true.1 (show (beforeFragment u).all (fun c => 32 ≤ c.toNat && c.toNat ≠ 127) = true from hu) c hc
  simpa using this

/-- A redirect URI whose fragment holds a header of its own. -/
def splittingGet : Req where
  method := b!"GET"
  path := b!"/authorize"
  headers := []
  body := []
  query := [(b!"client_id", b!"client"), (b!"redirect_uri", b!"https://app/cb#a\r\nSet-Cookie: s=1"),
    (b!"response_type", b!"code"), (b!"scope", b!"openid"), (b!"prompt", b!"none")]

/-- A client that accepts any redirect URI. -/
def laxWorld : Sample.World := { client := (some { Sample.client with canUseRedirectURI := fun _ => true }, none) }

/-- C104 fails in full: `url.Parse` does not look into the fragment. -/
theorem C104_false : ∃ (policy : Policy) (lib : Lib) (r : Req) (t : List Event) (resp : HttpResp), RejectsControl lib ∧
    Steps (AuthzEndpoint.handleRequest policy lib r) t ∧ wrote resp ∈ t ∧ ¬ OneLineHeaders resp := by
  let p := AuthzEndpoint.handleRequest Policy.default parsingLib splittingGet
  have hd : ((laxWorld.run p).1.filterMap fun e => match e.q with | .write resp => some resp | _ => none).any
      (fun resp => resp.headers.any fun kv => kv.2.contains 10) = true := by decide +kernel
  obtain ⟨resp, hm, hh⟩ := List.any_eq_true.1 hd
  obtain ⟨e, he, hq⟩ := List.mem_filterMap.1 hm
  obtain ⟨kv, hkv, hc⟩ := List.any_eq_true.1 hh
  have : e = wrote resp := by
    obtain ⟨q, x⟩ := e
    cases q <;> cases hq
    rfl
  subst this
  refine ⟨Policy.default, parsingLib, splittingGet, (laxWorld.run p).1, resp, parsing_rejects, runs_steps (laxWorld.runs p), he, fun h => ?_⟩
  exact absurd (h kv hkv).2 fun h => absurd (h 10 (List.contains_iff_mem.1 hc)) (by decide)

/-- Requests meet the hypotheses: one with line breaks everywhere but in its redirect URI is answered. -/
example : HeaderSafe (fromFragment ((authGet [(b!"state", b!"a\r\nb"), (b!"response_type", b!"x\ny")]).formValue b!"redirect_uri")) ∧
    ({} : Sample.World).status (AuthzEndpoint.handleRequest Policy.default parsingLib
      (authGet [(b!"state", b!"a\r\nb"), (b!"response_type", b!"x\ny")])) = some 302 ∧
    HeaderSafe Sample.tokenCfg.realm := by
  refine ⟨by unfold HeaderSafe; decide +kernel, by decide +kernel, by unfold HeaderSafe; decide +kernel⟩

/-! ## C105: log lines -/

theorem plain_append {a b : GoStr} (ha : Plain a) (hb : Plain b) : Plain (a ++ b) := by
  intro c hc
  rcases List.mem_append.1 hc with h | h
  · exact ha c h
  · exact hb c h

theorem text_plain {lv : LogLevel} {ep realm msg : GoStr} {ev : LogEvent} {ps : Params} (he : Plain ep) (hr : Plain realm) (hm : Plain msg) :
    Plain (b!"[" ++ Log.levelString lv ++ b!"]" ++ b!" " ++
      (b!"[goidc:" ++ ep ++ b!":" ++ realm ++ b!":" ++ Log.eventString ev ++ b!"] " ++ msg ++ b!" " ++ Log.jsonMap ps)) := by
  have h1 : Plain (b!"[" ++ Log.levelString lv ++ b!"]" ++ b!" ") := by unfold Plain; cases lv <;> decide
  have h2 : Plain (Log.eventString ev) := by unfold Plain; cases ev <;> decide
  have h3 : ∀ s ∈ [b!"[goidc:", b!":", b!"] ", b!" "], Plain s := by unfold Plain; decide
  simp only [List.forall_mem_cons] at h3
  obtain ⟨a, b, c, d, _⟩ := h3
  exact plain_append h1 (plain_append (plain_append (plain_append (plain_append (plain_append (plain_append (plain_append
    (plain_append (plain_append a he) b) hr) b) h2) c) hm) d) (jsonMap_ge ps))

/-- A line of the log filed under a realm free of control characters, with a message free of them, is
printed as one line, whatever its parameters. -/
theorem C105_one_line {min : LogLevel} {l : LogLine} {msg : GoStr} {out : List UInt8} (he : Plain l.endpoint) (hr : Plain l.realm)
    (hm : Plain msg) (h : Log.defaultPrint min l.level (Log.endpointLog l.endpoint l.realm l.event l.params msg) = some out) :
    OneLine out := by
  have no27 : ∀ {s : GoStr}, Plain s → 27 ∉ s := fun h h' => absurd (h 27 h') (by decide)
  have hu := line_uncoloured l.endpoint l.realm l.event l.params msg (no27 he) (no27 hr) (no27 hm)
  unfold Log.defaultPrint at h
  split at h
  · cases h
    have hl : Uncoloured (Log.paint (b!"[" ++ Log.levelString l.level ++ b!"]") (Log.levelColor l.level))
        (b!"[" ++ Log.levelString l.level ++ b!"]") := by
      have := uncoloured_paint (txt := b!"[" ++ Log.levelString l.level ++ b!"]") (col := Log.levelColor l.level)
        (by cases l.level <;> decide) (by cases l.level <;> decide)
      unfold Log.paint
      simpa using this
    have hall := uncoloured_append (uncoloured_append hl (uncoloured_plain (s := b!" ") (by decide))) hu
    refine ⟨_, _, rfl, hall, ?_, ?_⟩
    · have key : ∀ {a b : List UInt8}, Uncoloured a b → (∀ c ∈ b, 32 ≤ c) → ∀ c ∈ a, 32 ≤ c ∨ c = 27 := by
        intro a b h
        induction h with
        | nil => intro _ c hc; simp at hc
        | char hc _ ih =>
          intro hb x hx
          rcases List.mem_cons.1 hx with rfl | hx
          · exact .inl (hb _ List.mem_cons_self)
          · exact ih (fun y hy => hb y (List.mem_cons_of_mem _ hy)) x hx
        | colour hc _ ih =>
          intro hb x hx
          simp only [List.mem_cons, List.mem_append] at hx
          rcases hx with rfl | rfl | hx | rfl | hx
          · exact .inr rfl
          · exact .inl (by decide)
          · rcases hc x hx with ⟨h, _⟩ | rfl
            · exact .inl (UInt8.le_trans (by decide) h)
            · exact .inl (by decide)
          · exact .inl (by decide)
          · exact ih hb x hx
      refine key hall ?_
      all_goals exact text_plain he hr hm
    · exact text_plain he hr hm
  · cases h

/-- The line says which endpoint it is about, and its realm is free of control characters. -/
def TidyLog : Query → Prop
  | .log l => Plain l.endpoint ∧ Plain l.realm
  | _ => True

theorem tidyLog_issue : ∀ q : Query, q.issues = true → TidyLog q := by
  intro q hq; cases q <;> first | trivial | simp [Query.issues] at hq

theorem plain_endpoints : Plain b!"token_endpoint" ∧ Plain b!"authorization_endpoint" ∧ Plain b!"protected_resource" := by
  unfold Plain; decide

theorem tidy_lib : ∀ q : Query, q.isOutput = false → TidyLog q := by
  intro q hq
  cases q <;> first | trivial | simp [Query.isOutput] at hq

/-- C105: whatever a token request holds, each of its log entries is one line; the names of the grant types
and the messages are the application's and the library's. -/
theorem C105_token {cfg : TokenCfg} {min : LogLevel} {l : LogLine} {msg : GoStr} {out : List UInt8} (hb : AllBuiltIn lib cfg)
    (hn : ∀ kv ∈ cfg.handlers, Plain kv.1) (hm : Plain msg)
    (h : Steps (TokenEndpoint.handler cfg lib r) t) (hl : logged l ∈ t)
    (hp : Log.defaultPrint min l.level (Log.endpointLog l.endpoint l.realm l.event l.params msg) = some out) : OneLine out := by
  have ho : ∀ gt, Plain gt → TokQ TidyLog gt := fun gt hg => ⟨fun _ _ _ => ⟨plain_endpoints.1, hg⟩, fun q hq _ => tidy_lib q hq⟩
  have hall : ∀ gt ∈ [Grant.typeAuthorizationCode, Grant.typeRefreshToken, Grant.typePassword,
      Grant.typeClientCredentials, Grant.typeJWT], Plain gt := by unfold Plain; decide
  have hk : ∀ gt, TokenEndpoint.lookupHandler cfg.handlers gt ≠ none → Plain gt := by
    intro gt hg
    unfold TokenEndpoint.lookupHandler at hg
    split at hg
    · rename_i kv hkv
      have := hn kv (List.mem_of_find?_eq_some hkv)
      have h2 := List.find?_some hkv
      simp only [beq_iff_eq] at h2
      rwa [h2] at this
    · exact absurd rfl hg
  obtain ⟨h1, h2⟩ : TidyLog (.log l) := allQ_steps (tokQ_handler hb tidyLog_issue (fun e => ⟨allQ_ask trivial, allQ_ask trivial⟩)
    (fun _ => allQ_ask trivial) trivial (ho _ (by unfold Plain; decide)) (fun hg => ho _ (hk _ hg)) fun gt hg => ho _ (hall gt hg)) h _ hl
  exact C105_one_line h1 h2 hm hp

theorem tidy_frontLog {uri} (hr : Plain r.path) : FrontQ TidyLog lib r uri where
  log _ _ _ := ⟨plain_endpoints.2.1, hr⟩
  send mode ps := by
    have hd : ∀ {ty uri ps}, AllQ TidyLog (AuthResponse.redirectTo lib r ty uri ps) := by
      intro ty uri ps
      refine allQ_of_runs fun t o h e he => ?_
      rcases redirectTo_runs h with ⟨_, rfl, _⟩ | ⟨_, _, c, rfl, _⟩
      · simp at he
      · obtain rfl := List.mem_singleton.1 he
        trivial
    unfold AuthResponse.success
    split
    · exact hd
    split
    · exact hd
    split
    · exact allQ_bind' (allQ_ask trivial) fun _ => allQ_ask trivial
    · exact hd
  other q hq _ := tidy_lib q hq

/-- C105: so it is at the authorization endpoint, for a request whose path is free of control characters. -/
theorem C105_authorization_partial {min : LogLevel} {l : LogLine} {msg : GoStr} {out : List UInt8} (hr : Plain r.path) (hm : Plain msg)
    (h : Steps (AuthzEndpoint.handleRequest policy lib r) t ∨ Steps (AuthzEndpoint.completeRequest policy lib r) t ∨
      Steps (AuthzEndpoint.cancelRequest lib r) t) (hl : logged l ∈ t)
    (hp : Log.defaultPrint min l.level (Log.endpointLog l.endpoint l.realm l.event l.params msg) = some out) : OneLine out := by
  have hf : ∀ lv ev ps, TidyLog (.log ⟨lv, b!"authorization_endpoint", r.path, ev, ps⟩) :=
    fun _ _ _ => ⟨plain_endpoints.2.1, hr⟩
  obtain ⟨h1, h2⟩ : TidyLog (.log l) := by
    rcases h with h | h | h
    · exact allQ_steps ((tidy_frontLog hr).handleRequest tidyLog_issue) h _ hl
    · exact frontQ_complete tidyLog_issue h trivial hf (fun _ _ => tidy_frontLog hr) _ hl
    · exact frontQ_cancel h trivial hf (fun _ _ => tidy_frontLog hr) _ hl
  exact C105_one_line h1 h2 hm hp

/-- C105: and at a protected resource. -/
theorem C105_protector_partial {cfg : ProtectorCfg} {scopes : List (GoStr × List GoStr)} {min : LogLevel} {l : LogLine} {msg : GoStr}
    {out : List UInt8} (hr : Plain r.path) (hm : Plain msg)
    (h : Steps (ResourceProtector.validate cfg lib r) t ∨ Steps (ResourceProtector.validateWithScopes cfg lib r scopes) t)
    (hl : logged l ∈ t)
    (hp : Log.defaultPrint min l.level (Log.endpointLog l.endpoint l.realm l.event l.params msg) = some out) : OneLine out := by
  have hq := protQ (P := TidyLog) (lib := lib) (r := r) (cfg := cfg)
    (fun _ _ _ _ he => ⟨by rcases he with rfl | rfl; exact plain_endpoints.2.2; exact plain_endpoints.1, hr⟩) (fun e => allQ_ask trivial)
    (allQ_ask trivial) tidy_lib scopes
  obtain ⟨h1, h2⟩ : TidyLog (.log l) := by
    rcases h with h | h
    · exact allQ_steps hq.1 h _ hl
    · exact allQ_steps hq.2 h _ hl
  exact C105_one_line h1 h2 hm hp

theorem oneLine_count {out : List UInt8} (h : OneLine out) : out.count 10 = 1 := by
  obtain ⟨line, _, rfl, _, hl, _⟩ := h
  have : 10 ∉ line := fun hm => by rcases hl 10 hm with h | h <;> exact absurd h (by decide)
  simp [List.count_eq_zero.2 this]

/-- A request for `/me%0A[INFO] forged`, without a token. -/
def forgingGet : Req := { method := b!"GET", path := b!"/me\n[INFO] forged", headers := [], body := [], query := [] }

/-- C105 fails in full: the decoded path of a request for a protected resource is printed as it is, and an
anonymous request is enough. -/
theorem C105_false : ∃ (cfg : ProtectorCfg) (lib : Lib) (r : Req) (t : List Event) (l : LogLine) (msg : GoStr) (out : List UInt8),
    Plain msg ∧ Steps (ResourceProtector.validate cfg lib r) t ∧ logged l ∈ t ∧
    Log.defaultPrint .debug l.level (Log.endpointLog l.endpoint l.realm l.event l.params msg) = some out ∧ ¬ OneLine out := by
  let p := ResourceProtector.validate sampleProtector Sample.lib forgingGet
  let w : Sample.World := {}
  have hd : ((w.run p).1.filterMap fun e => match e.q with | .log l => some l | _ => none).any
      (fun l => (Log.defaultPrint .debug l.level (Log.endpointLog l.endpoint l.realm l.event l.params b!"text")).any
        fun out => out.count 10 != 1) = true := by decide +kernel
  obtain ⟨l, hm, hh⟩ := List.any_eq_true.1 hd
  obtain ⟨e, he, hq⟩ := List.mem_filterMap.1 hm
  have : e = logged l := by
    obtain ⟨q, x⟩ := e
    cases q <;> cases hq
    rfl
  subst this
  obtain ⟨out, ho, hc⟩ := (Option.any_eq_true _ _).1 hh
  refine ⟨_, _, forgingGet, _, l, b!"text", out, by unfold Plain; decide, runs_steps (w.runs p), he, ho, fun h => ?_⟩
  simp [oneLine_count h] at hc

/-- The names of the built-in grant types, and ordinary paths, meet the hypotheses. -/
example : (∀ kv ∈ Sample.tokenCfg.handlers, Plain kv.1) ∧ Plain sampleBearer.path ∧ Plain codeGet.path := by
  unfold Plain
  decide +kernel

/-- A token request whose code holds a line break is refused, and the refusal is printed. -/
example : (((({ session := (none, some .failed) } : Sample.World).run (TokenEndpoint.handler Sample.tokenCfg Sample.lib
      (Sample.post [(b!"grant_type", b!"authorization_code"), (b!"code", b!"a\nb"), (b!"redirect_uri", b!"https://app/cb")]))).1.filterMap
        fun e => match e.q with | .log l => some l | _ => none).filter fun l =>
      l.params.any (fun kv => kv.2.contains 10) &&
      (Log.defaultPrint .debug l.level (Log.endpointLog l.endpoint l.realm l.event l.params b!"text")).isSome).length = 1 := by
  decide +kernel

end Goidc.Props
