import Verif.Lemmas.TokenUnique
import Verif.Props.Completeness
import Verif.Sample.World

/-! # C76, C77: the decision table of the token endpoint -/

namespace Goidc.Props

open Spec TokenEndpoint

variable {cfg : TokenCfg} {lib : Lib} {r : Req} {kind : GrantKind} {t calls c1 : List Event} {o : Outcome Unit} {e : Reply}
  {c : Client} {now : Int64}

/-- C76: every request to the token endpoint is answered as the table says, with exactly the calls of the
row. -/
theorem C76_table (hk : ∀ h, Registered cfg r h → h = kind.handler lib) (h : Runs (handler cfg lib r) t o) :
    ∃ calls e, tokenTable cfg lib r kind calls (.inr e) ∧ RepliesWith cfg t o calls e := pf_handler renders_says hk t o h

/-- C76: the table is unambiguous.  A run that answers none of the calls of a row differently makes exactly
the calls of this row and ends as it says (with some ID token if the row has one). -/
theorem C76_unambiguous (hk : ∀ h, Registered cfg r h → h = kind.handler lib) (h : Runs (handler cfg lib r) t o)
    (hc : tokenTable cfg lib r kind calls (.inr e)) (hf : ¬ Fork (interactions t) calls) :
    ∃ e', e'.Alike e ∧ tokenTable cfg lib r kind calls (.inr e') ∧ RepliesWith cfg t o calls e' := by
  obtain ⟨c', e', h1, h2⟩ := C76_table hk h
  rcases single_tokenTable c' calls _ _ h1 hc with ⟨rfl, h3⟩ | h3
  · exact ⟨e', h3, h1, h2⟩
  · exact absurd (replies_fork h2 h3) hf

/-- C76: every row of the table occurs. -/
theorem C76_realised (hk : ∀ h, Registered cfg r h → h = kind.handler lib) (hc : tokenTable cfg lib r kind calls (.inr e)) :
    ∃ t o e', Runs (handler cfg lib r) t o ∧ e'.Alike e ∧ RepliesWith cfg t o calls e' := by
  obtain ⟨t, o, h, hf⟩ := run_following (handler cfg lib r) calls
  obtain ⟨e', h1, _, h2⟩ := C76_unambiguous hk h hc hf
  exact ⟨t, o, e', h, h1, h2⟩

theorem reply_alike_eq {e e' : Reply} (h : e'.Alike e) (hn : ∀ a b d, e ≠ .granted a b d) : e' = e := by
  cases e <;> cases e' <;> simp_all [Reply.Alike]

/-- A row other than a grant, whose calls happen, is followed exactly. -/
theorem token_follows (hk : ∀ h, Registered cfg r h → h = kind.handler lib) (h : Runs (handler cfg lib r) t o)
    (hc : tokenTable cfg lib r kind calls (.inr e)) (hp : calls <+: interactions t) (hn : ∀ a b d, e ≠ .granted a b d) :
    RepliesWith cfg t o calls e := by
  obtain ⟨e', h1, _, h2⟩ := C76_unambiguous hk h hc (fork_prefix hp)
  rwa [reply_alike_eq h1 hn] at h2

/-- The kind of a registered grant of the library. -/
theorem C76_kind (hb : AllBuiltIn lib cfg) : ∃ kind : GrantKind, ∀ h, Registered cfg r h → h = kind.handler lib := by
  cases hl : lookupHandler cfg.handlers (r.formValue b!"grant_type") with
  | none =>
    refine ⟨.code, fun h hr => ?_⟩
    have hr : lookupHandler cfg.handlers (r.formValue b!"grant_type") = some h := hr
    rw [hl] at hr; cases hr
  | some h0 =>
    have hu : ∀ h, Registered cfg r h → h = h0 := by
      intro h hr
      have hr : lookupHandler cfg.handlers (r.formValue b!"grant_type") = some h := hr
      rw [hl] at hr; exact (Option.some.inj hr).symm
    have hb' := hb _ h0 (show Registered cfg r h0 from hl)
    cases hb' with
    | authorizationCode => exact ⟨.code, hu⟩
    | refreshToken => exact ⟨.refresh, hu⟩
    | password => exact ⟨.password, hu⟩
    | clientCredentials => exact ⟨.client, hu⟩
    | jwt => exact ⟨.jwt, hu⟩

/-- A run of the token endpoint in a sample world. -/
abbrev tokenRun (w : Sample.World) (r : Req) := w.run (handler Sample.tokenCfg Sample.lib r)

theorem sample_registered {r : Req} (kind : GrantKind) (h : Registered Sample.tokenCfg r (kind.handler Sample.lib)) :
    ∀ h, Registered Sample.tokenCfg r h → h = kind.handler Sample.lib := by
  intro h' hr
  have h1 : lookupHandler _ _ = some h' := hr
  have h2 : lookupHandler _ _ = some _ := h
  rw [h1] at h2
  exact Option.some.inj h2

example : ∃ calls e, tokenTable Sample.tokenCfg Sample.lib (Sample.post Sample.codeBody) .code calls (.inr e) ∧
    RepliesWith Sample.tokenCfg (tokenRun {} (Sample.post Sample.codeBody)).1 (tokenRun {} (Sample.post Sample.codeBody)).2.1
      calls e := C76_table (sample_registered (r := Sample.post Sample.codeBody) .code rfl) (Sample.World.runs _ _)

/-- So rows exist, and the hypotheses of `C76_unambiguous` and `C76_realised` are met. -/
example : ∃ calls e t o, tokenTable Sample.tokenCfg Sample.lib (Sample.post Sample.codeBody) .code calls (.inr e) ∧
    Runs (handler Sample.tokenCfg Sample.lib (Sample.post Sample.codeBody)) t o ∧ ¬ Fork (interactions t) calls := by
  obtain ⟨calls, e, h, -⟩ := C76_table (sample_registered (r := Sample.post Sample.codeBody) .code rfl)
    (Sample.World.runs {} (handler Sample.tokenCfg Sample.lib (Sample.post Sample.codeBody)))
  obtain ⟨t, o, h1, h2⟩ := run_following (handler Sample.tokenCfg Sample.lib (Sample.post Sample.codeBody)) calls
  exact ⟨calls, e, t, o, h, h1, h2⟩

/-! ## C77: refusals before a grant -/

/-- C77: a request that is not a POST is answered 405, without any call. -/
theorem C77_method (hb : AllBuiltIn lib cfg) (h : Runs (handler cfg lib r) t o) (hm : r.method ≠ b!"POST") :
    RepliesWith cfg t o [] .wrongMethod := by
  obtain ⟨kind, hk⟩ := C76_kind (r := r) hb
  exact token_follows hk h (table_end (endIf_pos hm)) ⟨_, rfl⟩ (by simp)

/-- C77: without `grant_type`, and for a grant type that is not registered, the request is refused without
any call. -/
theorem C77_grant_type (hb : AllBuiltIn lib cfg) (h : Runs (handler cfg lib r) t o) (hm : r.method = b!"POST") :
    (r.formValue b!"grant_type" = [] →
      RepliesWith cfg t o [] (.refused .invalidRequest b!"missing 'grant_type' parameter")) ∧
    (r.formValue b!"grant_type" ≠ [] → (∀ h, ¬ Registered cfg r h) →
      RepliesWith cfg t o [] (.refused .unsupportedGrantType
        (b!"unsupported 'grant_type' parameter: '" ++ r.formValue b!"grant_type" ++ b!"'"))) := by
  obtain ⟨kind, hk⟩ := C76_kind (r := r) hb
  refine ⟨fun hg => ?_, fun hg hr => ?_⟩
  · exact token_follows hk h (table_goOn (not_not_intro hm) (table_end (endIf_pos hg)))
      ⟨_, rfl⟩ (by simp)
  · exact token_follows hk h (table_goOn (not_not_intro hm)
      (table_goOn hg (table_end (endIf_pos hr)))) ⟨_, rfl⟩ (by simp)

example : RepliesWith Sample.tokenCfg (tokenRun {} { Sample.post Sample.codeBody with method := b!"GET" }).1
    (tokenRun {} { Sample.post Sample.codeBody with method := b!"GET" }).2.1 [] .wrongMethod :=
  C77_method sample_allBuiltIn (Sample.World.runs _ _) (by decide)

example : RepliesWith Sample.tokenCfg (tokenRun {} (Sample.post [])).1 (tokenRun {} (Sample.post [])).2.1 []
    (.refused .invalidRequest b!"missing 'grant_type' parameter") :=
  (C77_grant_type sample_allBuiltIn (Sample.World.runs _ _) rfl).1 (by decide +kernel)

example : ∀ h, ¬ Registered Sample.tokenCfg (Sample.post [(b!"grant_type", b!"device")]) h := by
  intro h hr
  have h0 : lookupHandler Sample.tokenCfg.handlers ((Sample.post [(b!"grant_type", b!"device")]).formValue b!"grant_type") = none := rfl
  have hr : lookupHandler _ _ = some h := hr
  rw [h0] at hr
  cases hr

theorem clientOf_row (hk : ∀ h, Registered cfg r h → h = kind.handler lib) (h : Runs (handler cfg lib r) t o)
    (hm : r.method = b!"POST") (hg : r.formValue b!"grant_type" ≠ []) (hr : Registered cfg r (kind.handler lib))
    (hc : clientOf cfg lib r calls (.inr e)) (hp : calls <+: interactions t) (hn : ∀ a b d, e ≠ .granted a b d) :
    RepliesWith cfg t o calls e :=
  token_follows hk h (table_goOn (not_not_intro hm) (table_goOn hg
    (table_goOn (fun h => h _ hr) (table_end hc)))) hp hn

theorem registered_kind (hr : Registered cfg r (kind.handler lib)) : ∀ h, Registered cfg r h → h = kind.handler lib := by
  intro h h'
  have h1 : lookupHandler cfg.handlers (r.formValue b!"grant_type") = some h := h'
  have h2 : lookupHandler cfg.handlers (r.formValue b!"grant_type") = some (kind.handler lib) := hr
  rw [h1] at h2
  exact Option.some.inj h2

/-- C77: a request without credentials is challenged, without any call. -/
theorem C77_no_credential (hr : Registered cfg r (kind.handler lib)) (h : Runs (handler cfg lib r) t o)
    (hm : r.method = b!"POST") (hg : r.formValue b!"grant_type" ≠ [])
    (h1 : ∀ cid sec b, ¬ Presented cfg.acceptance r cid sec b)
    (h2 : cfg.acceptClientAssertion = false ∨ ∀ a, ¬ PresentedAssertion r a) : RepliesWith cfg t o [] .challenged := by
  refine clientOf_row (registered_kind hr) h hm hg hr (table_end (find_none ?_)) ⟨_, rfl⟩ (by simp)
  rintro (⟨cid, sec, b⟩ | ⟨a⟩) hx
  · exact h1 _ _ _ hx
  · obtain ⟨_, k2, k3⟩ := hx
    rcases h2 with h2 | h2
    · rw [h2] at k2; cases k2
    · exact h2 _ k3

/-- C77: a client that presents a secret is looked up once.  An unknown client and a wrong secret are
refused in the same way (challenged when the secret is in the Authorization header); a grant type it may not
use, and a failing application, are refused. -/
theorem C77_secret (hr : Registered cfg r (kind.handler lib)) (h : Runs (handler cfg lib r) t o)
    (hm : r.method = b!"POST") (hg : r.formValue b!"grant_type" ≠ []) {cid sec : GoStr} {inHeader : Bool}
    (hs : Presented cfg.acceptance r cid sec inHeader) :
    ∃ x, [⟨.findClientById cid, x⟩] <+: interactions t ∧
      (∀ v, x = (v, some .failed) →
        RepliesWith cfg t o [⟨.findClientById cid, x⟩] (if inHeader then .challenged else .refused .invalidClient [])) ∧
      (∀ v err, x = (v, some err) → err ≠ .failed →
        RepliesWith cfg t o [⟨.findClientById cid, x⟩] (.refused .serverError [])) ∧
      (x = (none, none) → RepliesWith cfg t o [⟨.findClientById cid, x⟩] (.refused .serverError [])) ∧
      (∀ c, x = (some c, none) → c.matchSecret sec = false →
        RepliesWith cfg t o [⟨.findClientById cid, x⟩] (if inHeader then .challenged else .refused .invalidClient [])) ∧
      (∀ c, x = (some c, none) → c.matchSecret sec = true → c.canUseGrantType (r.formValue b!"grant_type") = false →
        RepliesWith cfg t o [⟨.findClientById cid, x⟩] (.refused .unauthorizedClient [])) := by
  have hk := registered_kind hr
  have hcr : find (CarriesCredential cfg r) .challenged [] (.inl (.secret cid sec inHeader)) :=
    find_some (a := Credential.secret cid sec inHeader) hs
  have hin : ∀ a b d, (if inHeader = true then Reply.challenged else .refused .invalidClient []) ≠ .granted a b d := by
    cases inHeader <;> simp
  have row : ∀ {cs e}, clientBySecret r cid sec inHeader cs (.inr e) → cs <+: interactions t →
      (∀ a b d, e ≠ Reply.granted a b d) → RepliesWith cfg t o cs e := fun hx hp hn =>
    clientOf_row hk h hm hg hr (table_next (c := []) hcr hx) hp hn
  have hask : ∃ x, [⟨.findClientById cid, x⟩] <+: interactions t := by
    -- a row with some answer to this call: the run answers it, or forks there
    obtain ⟨c', e', k1, k2⟩ := C76_table hk h
    have hrow : tokenTable cfg lib r kind [⟨.findClientById cid, (none, none)⟩] (.inr (.refused .serverError [])) :=
      table_goOn (not_not_intro hm) (table_goOn hg
        (table_goOn (fun h => h _ hr) (table_end (table_next (c := []) hcr
          (table_end (.nothing rfl))))))
    have hpre : c' <+: interactions t := by
      rcases k2 with ⟨resp, k, -⟩ | ⟨-, k, -⟩
      · exact ⟨_, k.symm⟩
      · exact ⟨[], by rw [k, List.append_nil]⟩
    rcases single_tokenTable c' _ _ _ k1 hrow with ⟨rfl, -⟩ | hf
    · exact ⟨_, hpre⟩
    · obtain ⟨b, s', rfl⟩ := fork_next (c0 := []) (List.nil_prefix) hf
      refine ⟨b, ?_⟩
      obtain ⟨s, hs⟩ := hpre
      exact ⟨s' ++ s, by rw [← hs]; rfl⟩
  obtain ⟨x, hx⟩ := hask
  refine ⟨x, hx, ?_, ?_, ?_, ?_, ?_⟩
  · rintro v rfl
    exact row (table_end (.refused rfl)) hx hin
  · rintro v err rfl he
    exact row (table_end (.failed rfl he)) hx (by simp)
  · rintro rfl
    exact row (table_end (.nothing rfl)) hx (by simp)
  · rintro c rfl hs
    exact row (table_got rfl (table_end (endIf_pos hs))) hx hin
  · rintro c rfl hs hg
    exact row (table_got rfl (table_goOn (by rw [hs]; simp)
      (table_end (endIf_pos hg)))) hx (by simp)

example : RepliesWith Sample.tokenCfg (tokenRun {} { Sample.post Sample.codeBody with headers := [] }).1
    (tokenRun {} { Sample.post Sample.codeBody with headers := [] }).2.1 [] .challenged := by
  refine C77_no_credential (r := { Sample.post Sample.codeBody with headers := [] }) (lib := Sample.lib) (kind := .code) rfl (Sample.World.runs _ _) rfl (by decide +kernel) ?_ (.inr ?_)
  · intro cid sec b h
    cases h with
    | header h =>
      have h0 : ({ Sample.post Sample.codeBody with headers := [] } : Req).basicAuth = none := by decide +kernel
      rw [h0] at h; cases h
    | body h => cases h
    | any h => cases h
  · rintro a ⟨rfl, h, -⟩
    exact h (by decide +kernel)

/-- The client's secret is wrong. -/
example : ∃ x, [⟨.findClientById b!"client", x⟩] <+: interactions (tokenRun
    { client := (some { Sample.client with matchSecret := fun _ => false }, none) } (Sample.post Sample.codeBody)).1 ∧
    x = (some { Sample.client with matchSecret := fun _ => false }, none) := by
  exact ⟨_, ⟨_, rfl⟩, rfl⟩

example : Presented Sample.tokenCfg.acceptance (Sample.post Sample.codeBody) b!"client" b!"secret" true :=
  .header _ _ (by decide +kernel)

/-! ## C78: refusals of the grants -/

theorem grant_row (ha : Admitted cfg lib r kind c now c1) (h : Runs (handler cfg lib r) t o)
    (hc : grantTable lib r c now kind calls (.inr e)) (hp : c1 ++ calls <+: interactions t) (hn : ∀ a b d, e ≠ .granted a b d) :
    RepliesWith cfg t o (c1 ++ calls) e := by
  obtain ⟨hm, hg, hr, c2, h1, rfl⟩ := ha
  refine token_follows (registered_kind hr) h ?_ hp hn
  rw [List.append_assoc]
  exact table_goOn (not_not_intro hm) (table_goOn hg
    (table_goOn (fun h => h _ hr) (table_next h1 (table_next (c := [⟨.now, now⟩]) ⟨now, rfl, rfl⟩
      (table_end hc)))))

/-- The calls that authenticate the sample client. -/
abbrev sampleAuth : List Event := [⟨.findClientById b!"client", (some Sample.client, none)⟩, ⟨.now, (1000 : Int64)⟩]

theorem tokenRun_admitted (kind : GrantKind) (body : Params) (hm : (Sample.post body).formValue b!"grant_type" ≠ [])
    (hr : Registered Sample.tokenCfg (Sample.post body) (kind.handler Sample.lib))
    (hu : Sample.client.canUseGrantType ((Sample.post body).formValue b!"grant_type") = true) :
    Admitted Sample.tokenCfg Sample.lib (Sample.post body) kind Sample.client 1000 sampleAuth where
  post := rfl
  grantType := hm
  registered := hr
  client := by
    refine ⟨[⟨.findClientById b!"client", (some Sample.client, none)⟩], ?_, rfl⟩
    refine table_next (c := []) (find_some (a := Credential.secret b!"client" b!"secret" true) ?_)
      (table_got rfl (table_goOn (by decide +kernel) (table_goOn (by rw [hu]; simp) table_pure)))
    exact .header _ b!"secret" (show (Sample.post body).basicAuth = _ by
      show (Sample.post []).basicAuth = _
      decide +kernel)

/-- The parameters a grant needs. -/
def needed : GrantKind → List GoStr
  | .code => [b!"redirect_uri", b!"code"]
  | .refresh => [b!"refresh_token"]
  | .password => [b!"username", b!"password"]
  | .client => []
  | .jwt => [b!"assertion"]

/-- C78: when a parameter the grant needs is missing, the request is refused with invalid_request naming it,
and nothing is asked of the application after the client has been authenticated. -/
theorem C78_missing (ha : Admitted cfg lib r kind c now c1) (h : Runs (handler cfg lib r) t o) (hp : c1 <+: interactions t)
    {pre post : List GoStr} {name : GoStr} (hl : needed kind = pre ++ name :: post)
    (hb : ∀ n ∈ pre, r.formValue n ≠ []) (hx : r.formValue name = []) :
    RepliesWith cfg t o c1 (.refused .invalidRequest (b!"missing '" ++ name ++ b!"' parameter")) := by
  have key : ∀ {e}, grantTable lib r c now kind [] (.inr e) → (∀ a b d, e ≠ Reply.granted a b d) →
      RepliesWith cfg t o c1 e := by
    intro e h1 hn
    have := grant_row ha h h1 (by rwa [List.append_nil]) hn
    rwa [List.append_nil] at this
  refine key ?_ (by simp)
  cases kind with
  | client => simp [needed] at hl
  | refresh =>
    cases pre with
    | nil => cases hl; exact table_end (endIf_pos hx)
    | cons n pre => simp [needed] at hl
  | jwt =>
    cases pre with
    | nil => cases hl; exact table_end (endIf_pos hx)
    | cons n pre => simp [needed] at hl
  | code =>
    match pre, hl with
    | [], hl => cases hl; exact table_end (endIf_pos hx)
    | [n], hl =>
      cases hl
      exact table_goOn (hb _ (by simp)) (table_end (endIf_pos hx))
    | _ :: _ :: _, hl => simp [needed] at hl
  | password =>
    match pre, hl with
    | [], hl => cases hl; exact table_end (endIf_pos hx)
    | [n], hl =>
      cases hl
      exact table_goOn (hb _ (by simp)) (table_end (endIf_pos hx))
    | _ :: _ :: _, hl => simp [needed] at hl

example : RepliesWith Sample.tokenCfg
    (tokenRun {} (Sample.post [(b!"grant_type", b!"password"), (b!"username", b!"u")])).1
    (tokenRun {} (Sample.post [(b!"grant_type", b!"password"), (b!"username", b!"u")])).2.1 sampleAuth
    (.refused .invalidRequest b!"missing 'password' parameter") :=
  C78_missing (tokenRun_admitted .password [(b!"grant_type", b!"password"), (b!"username", b!"u")] (by decide +kernel) rfl rfl) (Sample.World.runs _ _) ⟨_, rfl⟩
    (pre := [b!"username"]) (post := []) rfl (by decide +kernel) (by decide +kernel)

/-- The session and the authorization of a code request were found. -/
def codeFound (r : Req) (sess : AuthSession) (info : AuthInfo) : List Event :=
  [⟨.findAuthSessionByCode (r.formValue b!"code"), (some sess, none)⟩, ⟨.findActiveAuthInfoById sess.authId, (some info, none)⟩]

/-- C78: a code is refused with invalid_grant, and no token is created, when it belongs to another client,
when the redirect URI differs, and when the PKCE challenge does not fit; a request that lacks or mistakes the
PKCE parameters is refused with invalid_request. -/
theorem C78_code (ha : Admitted cfg lib r .code c now c1) (h : Runs (handler cfg lib r) t o)
    (hu : r.formValue b!"redirect_uri" ≠ []) (hcd : r.formValue b!"code" ≠ []) {sess : AuthSession} {info : AuthInfo}
    (hp : c1 ++ codeFound r sess info <+: interactions t) :
    (info.clientId ≠ c.id → RepliesWith cfg t o (c1 ++ codeFound r sess info) (.refused .invalidGrant [])) ∧
    (info.clientId = c.id → sess.redirectURI ≠ r.formValue b!"redirect_uri" →
      RepliesWith cfg t o (c1 ++ codeFound r sess info) (.refused .invalidGrant
        (b!"indicated 'redirect_uri' (" ++ r.formValue b!"redirect_uri" ++ b!") is not allowed for this client"))) ∧
    (info.clientId = c.id → sess.redirectURI = r.formValue b!"redirect_uri" → sess.codeVerifier ≠ [] →
      (r.formValue b!"code_challenge_method" = [] → RepliesWith cfg t o (c1 ++ codeFound r sess info)
        (.refused .invalidRequest b!"missing 'code_challenge_method' parameter")) ∧
      (r.formValue b!"code_challenge_method" ≠ [] → r.formValue b!"code_challenge" = [] →
        RepliesWith cfg t o (c1 ++ codeFound r sess info)
          (.refused .invalidRequest b!"missing 'code_challenge' parameter")) ∧
      (r.formValue b!"code_challenge_method" ≠ [] → r.formValue b!"code_challenge" ≠ [] →
        r.formValue b!"code_challenge_method" ∉ [b!"plain", b!"S256"] →
        RepliesWith cfg t o (c1 ++ codeFound r sess info) (.refused .invalidRequest
          (b!"unsupported 'code_challenge_method': '" ++ r.formValue b!"code_challenge_method" ++ b!"'"))) ∧
      (r.formValue b!"code_challenge" ≠ [] → r.formValue b!"code_challenge_method" ∈ [b!"plain", b!"S256"] →
        ¬ ChallengeFits lib r sess.codeVerifier → RepliesWith cfg t o (c1 ++ codeFound r sess info)
          (.refused .invalidGrant (b!"invalid 'code_challenge': '" ++ r.formValue b!"code_challenge" ++ b!"'")))) := by
  refine ⟨fun h1 => ?_, fun h1 h2 => ?_, fun h1 h2 h3 => ⟨fun h4 => ?_, fun h4 h5 => ?_, fun h4 h5 h6 => ?_, fun h4 h5 h6 => ?_⟩⟩
  all_goals refine grant_row ha h (table_goOn hu (table_goOn hcd (table_got rfl (table_got rfl ?_)))) hp (by simp)
  · exact table_end (endIf_pos h1)
  · exact table_goOn (by simp [h1]) (table_end (endIf_pos h2))
  · exact table_goOn (by simp [h1]) (table_goOn (by simp [h2])
      (table_end (endIf_pos ⟨h3, h4⟩)))
  · exact table_goOn (by simp [h1]) (table_goOn (by simp [h2])
      (table_goOn (by simp [h4]) (table_end (endIf_pos ⟨h3, h5⟩))))
  · exact table_goOn (by simp [h1]) (table_goOn (by simp [h2])
      (table_goOn (by simp [h4]) (table_goOn (by simp [h5])
      (table_end (endIf_pos ⟨h3, h6⟩)))))
  · have h7 : r.formValue b!"code_challenge_method" ≠ [] := by
      intro h7; rw [h7] at h5; revert h5; decide
    exact table_goOn (by simp [h1]) (table_goOn (by simp [h2])
      (table_goOn (by simp [h7]) (table_goOn (by simp [h4])
      (table_goOn (fun h => h.2 h5) (table_end (endIf_pos ⟨h3, h6⟩))))))

/-- A world in which the code belongs to another client. -/
def stolenWorld : Sample.World := { info := (some { Sample.info with clientId := b!"other" }, none) }

example : RepliesWith Sample.tokenCfg (tokenRun stolenWorld (Sample.post Sample.codeBody)).1
    (tokenRun stolenWorld (Sample.post Sample.codeBody)).2.1
    (sampleAuth ++ codeFound (Sample.post Sample.codeBody) Sample.session { Sample.info with clientId := b!"other" })
    (.refused .invalidGrant []) :=
  (C78_code (tokenRun_admitted .code Sample.codeBody (by decide +kernel) rfl rfl) (stolenWorld.runs _) (by decide +kernel)
    (by decide +kernel) ⟨_, rfl⟩).1 (by decide)

/-- The wrong challenge. -/
example : sampleAuth ++ codeFound (Sample.post ((b!"code_challenge", b!"wrong") :: Sample.codeBody)) Sample.session Sample.info <+:
      interactions (tokenRun {} (Sample.post ((b!"code_challenge", b!"wrong") :: Sample.codeBody))).1 ∧
    ¬ ChallengeFits Sample.lib (Sample.post ((b!"code_challenge", b!"wrong") :: Sample.codeBody)) Sample.session.codeVerifier := by
  refine ⟨⟨_, rfl⟩, ?_⟩
  rintro (⟨-, h⟩ | ⟨h, -⟩)
  · revert h; decide +kernel
  · revert h; decide +kernel

/-- C78: a refresh token is refused with invalid_grant, and not refreshed, when it has expired, when its
authorization is not active, when it belongs to another client, and when it was not granted offline_access. -/
theorem C78_refresh (ha : Admitted cfg lib r .refresh c now c1) (h : Runs (handler cfg lib r) t o)
    (hu : r.formValue b!"refresh_token" ≠ []) {old : OAuthToken} {x : Option AuthInfo × Option ErrType}
    (hp : c1 ++ [⟨.findOAuthTokenByRefreshToken (r.formValue b!"refresh_token"), (some old, none)⟩] <+: interactions t) :
    (old.createdAt + old.refreshTokenExpiresIn < now →
      RepliesWith cfg t o (c1 ++ [⟨.findOAuthTokenByRefreshToken (r.formValue b!"refresh_token"), (some old, none)⟩])
        (.refused .invalidGrant b!"expired 'refresh_token'")) ∧
    (¬ old.createdAt + old.refreshTokenExpiresIn < now →
      c1 ++ [⟨.findOAuthTokenByRefreshToken (r.formValue b!"refresh_token"), (some old, none)⟩,
        ⟨.findActiveAuthInfoById old.authId, x⟩] <+: interactions t →
      (x.2 = some .failed ∨ (∃ info, x = (some info, none) ∧
        (info.clientId ≠ c.id ∨ ¬ HasWord info.scope b!"offline_access"))) →
      RepliesWith cfg t o (c1 ++ [⟨.findOAuthTokenByRefreshToken (r.formValue b!"refresh_token"), (some old, none)⟩,
        ⟨.findActiveAuthInfoById old.authId, x⟩]) (.refused .invalidGrant [])) := by
  refine ⟨fun hx => grant_row ha h ?_ hp (by simp), fun hx hp' hi => grant_row ha h ?_ hp' (by simp)⟩
  · exact table_goOn hu (table_got rfl (table_end (endIf_pos hx)))
  · refine table_goOn hu (table_got rfl
      (table_goOn hx ?_))
    rcases hi with hi | ⟨info, rfl, hi⟩
    · obtain ⟨v, e⟩ := x
      cases hi
      exact table_end (.refused rfl)
    · refine table_got rfl ?_
      by_cases h1 : info.clientId ≠ c.id
      · exact table_end (endIf_pos h1)
      · rcases hi with hi | hi
        · exact absurd hi h1
        · exact table_goOn h1 (table_end (endIf_pos hi))

/-- A world in which the refresh token has expired. -/
example : RepliesWith Sample.tokenCfg (tokenRun { now := 100000 } (Sample.post Sample.refreshBody)).1
    (tokenRun { now := 100000 } (Sample.post Sample.refreshBody)).2.1
    ([⟨.findClientById b!"client", (some Sample.client, none)⟩, ⟨.now, (100000 : Int64)⟩] ++
      [⟨.findOAuthTokenByRefreshToken ((Sample.post Sample.refreshBody).formValue b!"refresh_token"), (some Sample.token, none)⟩])
    (.refused .invalidGrant b!"expired 'refresh_token'") := by
  obtain ⟨h1, h2, h3, c1, h4, h5⟩ := tokenRun_admitted .refresh Sample.refreshBody (by decide +kernel) rfl rfl
  have h5 : c1 = [⟨.findClientById b!"client", (some Sample.client, none)⟩] := (List.append_inj_left' h5 rfl).symm
  subst h5
  exact (C78_refresh (x := (none, none)) ⟨h1, h2, h3, _, h4, rfl⟩ (Sample.World.runs _ _) (by decide +kernel) ⟨_, rfl⟩).1 (by decide)

/-- A token without offline_access. -/
example : ¬ HasWord b!"openid profile" b!"offline_access" := by
  rw [← scope_hasWord]; decide +kernel

/-- C78: a scope the client may not ask for itself is refused with invalid_scope before the user is looked up
(password grant) or an authorization is created (client_credentials); a wrong password and a client without an
owner are refused with invalid_grant. -/
theorem C78_direct (h : Runs (handler cfg lib r) t o) (hp : c1 <+: interactions t) :
    (Admitted cfg lib r .password c now c1 → r.formValue b!"username" ≠ [] → r.formValue b!"password" ≠ [] →
      r.formValue b!"scope" ≠ [] → c.canUseScope .directGrant (r.formValue b!"scope") = false →
      RepliesWith cfg t o c1 (.refused .invalidScope [])) ∧
    (Admitted cfg lib r .client c now c1 → c.ownerUserId.toInt < 0 →
      RepliesWith cfg t o c1 (.refused .invalidGrant [])) ∧
    (Admitted cfg lib r .client c now c1 → 0 ≤ c.ownerUserId.toInt →
      r.formValue b!"scope" ≠ [] → c.canUseScope .directGrant (r.formValue b!"scope") = false →
      RepliesWith cfg t o c1 (.refused .invalidScope [])) ∧
    (∀ {uid : Int64}, Admitted cfg lib r .password c now c1 → r.formValue b!"username" ≠ [] → r.formValue b!"password" ≠ [] →
      (r.formValue b!"scope" = [] ∨ c.canUseScope .directGrant (r.formValue b!"scope") = true) →
      c1 ++ [⟨.findUserId (r.formValue b!"username") (r.formValue b!"password"), (uid, some .failed)⟩] <+: interactions t →
      RepliesWith cfg t o
        (c1 ++ [⟨.findUserId (r.formValue b!"username") (r.formValue b!"password"), (uid, some .failed)⟩])
        (.refused .invalidGrant [])) := by
  have key : ∀ {kind : GrantKind} {e}, Admitted cfg lib r kind c now c1 → grantTable lib r c now kind [] (.inr e) →
      (∀ a b d, e ≠ Reply.granted a b d) → RepliesWith cfg t o c1 e := by
    intro kind e ha h1 hn
    have := grant_row ha h h1 (by rwa [List.append_nil]) hn
    rwa [List.append_nil] at this
  refine ⟨fun ha h1 h2 h3 h4 => key ha ?_ (by simp), fun ha h1 => key ha ?_ (by simp), fun ha h1 h3 h4 => key ha ?_ (by simp),
    fun ha h1 h2 h3 hp' => grant_row ha h ?_ hp' (by simp)⟩
  · exact table_goOn h1 (table_goOn h2 (table_end (endIf_pos ⟨h3, h4⟩)))
  · exact table_end (endIf_pos h1)
  · exact table_goOn (by omega) (table_end (endIf_pos ⟨h3, h4⟩))
  · refine table_goOn h1 (table_goOn h2 (table_goOn ?_
      (table_end (.refused rfl))))
    rintro ⟨h5, h6⟩
    rcases h3 with h3 | h3
    · exact h5 h3
    · rw [h3] at h6; cases h6

example : RepliesWith Sample.tokenCfg (tokenRun {} (Sample.post ((b!"scope", b!"admin") :: Sample.passwordBody))).1
    (tokenRun {} (Sample.post ((b!"scope", b!"admin") :: Sample.passwordBody))).2.1 sampleAuth (.refused .invalidScope []) :=
  (C78_direct (Sample.World.runs _ _) ⟨_, rfl⟩).1
    (tokenRun_admitted .password ((b!"scope", b!"admin") :: Sample.passwordBody) (by decide +kernel) rfl rfl) (by decide +kernel)
    (by decide +kernel) (by decide +kernel) (by decide +kernel)

example : RepliesWith Sample.tokenCfg (tokenRun { user := (0, some .failed) } (Sample.post Sample.passwordBody)).1
    (tokenRun { user := (0, some .failed) } (Sample.post Sample.passwordBody)).2.1
    (sampleAuth ++ [⟨.findUserId ((Sample.post Sample.passwordBody).formValue b!"username")
      ((Sample.post Sample.passwordBody).formValue b!"password"), ((0 : Int64), some .failed)⟩]) (.refused .invalidGrant []) :=
  (C78_direct (c1 := sampleAuth) (Sample.World.runs _ _) ⟨_, rfl⟩).2.2.2
    (tokenRun_admitted .password Sample.passwordBody (by decide +kernel) rfl rfl) (by decide +kernel) (by decide +kernel)
    (.inr (by decide +kernel)) ⟨_, rfl⟩

/-! ## C79: refusals of assertions -/

theorem firstOf_cons {p : Prop} {y x : OAuthErrorType × GoStr} {l : List (Prop × OAuthErrorType × GoStr)}
    (h : FirstOf ((p, y) :: l) x) : (p ∧ x = y) ∨ (¬ p ∧ FirstOf l x) := by
  obtain ⟨pre, q, post, h1, h2, h3⟩ := h
  cases pre with
  | nil => cases h1; exact .inl ⟨h3, rfl⟩
  | cons z pre =>
    cases h1
    exact .inr ⟨h2 (p, y) (by simp), pre, q, post, rfl, fun y hy => h2 y (by simp [hy]), h3⟩

theorem assertionOf_fault {a : GoStr} {tk : JwtToken} {key : Key} {wall : Int64} {x : OAuthErrorType × GoStr}
    (hk : c.assertionKey (tk.alg.getD []) (tk.kid.getD []) = some key) (hx : FirstOf (assertionFaults lib a tk key wall) x) :
    assertionOf lib c a tk [⟨.wallNow, wall⟩] (.inr (.refused x.1 x.2)) := by
  refine table_next (c := []) (find_some hk) (table_next (c := [_]) (c' := []) ⟨wall, rfl, rfl⟩ ?_)
  unfold assertionFaults at hx
  rcases firstOf_cons hx with ⟨h, rfl⟩ | ⟨n1, hx⟩
  · exact table_end (endIf_pos h)
  refine table_goOn n1 ?_
  rcases firstOf_cons hx with ⟨h, rfl⟩ | ⟨n1, hx⟩
  · exact table_end (endIf_pos h)
  refine table_goOn n1 ?_
  rcases firstOf_cons hx with ⟨h, rfl⟩ | ⟨n1, hx⟩
  · exact table_end (endIf_pos h)
  refine table_goOn n1 ?_
  rcases firstOf_cons hx with ⟨h, rfl⟩ | ⟨n1, hx⟩
  · exact table_end (endIf_pos h)
  refine table_goOn n1 ?_
  rcases firstOf_cons hx with ⟨h, rfl⟩ | ⟨n1, hx⟩
  · exact table_end (find_none h)
  obtain ⟨pre, p, post, h, -⟩ := hx
  simp at h

/-- An assertion without fault is recorded: the calls of this, and how it ends when the application refuses, or
the audience is wrong. -/
theorem assertionOf_recorded {a : GoStr} {tk : JwtToken} {key : Key} {wall exp iat : Int64} {jti : GoStr}
    (hk : c.assertionKey (tk.alg.getD []) (tk.kid.getD []) = some key)
    (hx : ∀ y ∈ assertionFaults lib a tk key wall, ¬ y.1) (he : NumberClaim tk b!"exp" exp)
    (hi : RecordedIat tk iat) (hj : RecordedJti tk jti) :
    assertionOf lib c a tk [⟨.wallNow, wall⟩, ⟨.recordAssertionClaims c.id jti iat exp, some .failed⟩]
      (.inr (.refused .invalidRequest [])) ∧
    (tk.claimStr b!"aud" = none →
      assertionOf lib c a tk [⟨.wallNow, wall⟩, ⟨.recordAssertionClaims c.id jti iat exp, none⟩]
        (.inr (.refused .invalidRequest b!"'aud' parameter not found in assertion"))) ∧
    (∀ aud issuer, tk.claimStr b!"aud" = some aud → issuer ≠ [] → aud ≠ issuer →
      assertionOf lib c a tk [⟨.wallNow, wall⟩, ⟨.recordAssertionClaims c.id jti iat exp, none⟩, ⟨.issuer, issuer⟩]
        (.inr (.refused .invalidGrant (b!"invalid 'aud' parameter '" ++ aud ++ b!"' in assertion")))) := by
  simp only [assertionFaults, List.mem_cons, List.not_mem_nil, or_false, forall_eq_or_imp, forall_eq] at hx
  obtain ⟨h1, h2, h3, h4, h5⟩ := hx
  refine ⟨?_, fun ha => ?_, fun aud issuer ha h6 h7 => ?_⟩
  all_goals
    unfold assertionOf
    refine table_next (c := []) (find_some hk) (table_next (c := [_]) ⟨wall, rfl, rfl⟩ (table_goOn h1 (table_goOn h2
      (table_goOn h3 (table_goOn h4 (table_next (c := []) (find_some he) (table_next (c := []) (find_some hi)
      (table_next (c := []) (find_some hj) ?_))))))))
  · exact table_end (.refused rfl)
  · refine table_got (by rfl) (table_end (find_none ?_))
    rw [ha]; rintro _ ⟨⟩
  · refine table_got (by rfl) (table_next (c := []) (find_some ha) (table_next (c := [_]) (c' := []) ⟨issuer, rfl, rfl⟩
      (table_goOn h6 (endIf_pos h7))))

/-- C79: how the assertion of a JWT bearer request is refused: when it cannot be decoded, its algorithm is not
usable, or the client has no key for it; with the first of the faults; when its record is refused (a replay);
and when it is for another audience. -/
theorem C79_jwt_grant (ha : Admitted cfg lib r .jwt c now c1) (h : Runs (handler cfg lib r) t o)
    (hn : r.formValue b!"assertion" ≠ []) (hp : c1 <+: interactions t) :
    (lib.jwtDecode (r.formValue b!"assertion") = none →
      RepliesWith cfg t o c1 (.refused .invalidGrant b!"invalid assertion format")) ∧
    (∀ tk, lib.jwtDecode (r.formValue b!"assertion") = some tk →
      (¬ UsableAlg tk ∨ c.assertionKey (tk.alg.getD []) (tk.kid.getD []) = none) →
      RepliesWith cfg t o c1 (.refused .invalidGrant b!"assertion unverifiable")) ∧
    (∀ tk key wall, lib.jwtDecode (r.formValue b!"assertion") = some tk → UsableAlg tk →
      c.assertionKey (tk.alg.getD []) (tk.kid.getD []) = some key →
      (∀ x, c1 ++ [⟨.wallNow, wall⟩] <+: interactions t →
        FirstOf (assertionFaults lib (r.formValue b!"assertion") tk key wall) x →
        RepliesWith cfg t o (c1 ++ [⟨.wallNow, wall⟩]) (.refused x.1 x.2)) ∧
      (∀ exp iat jti, (∀ y ∈ assertionFaults lib (r.formValue b!"assertion") tk key wall, ¬ y.1) →
        NumberClaim tk b!"exp" exp → RecordedIat tk iat → RecordedJti tk jti →
        (c1 ++ [⟨.wallNow, wall⟩, ⟨.recordAssertionClaims c.id jti iat exp, some .failed⟩] <+: interactions t →
          RepliesWith cfg t o (c1 ++ [⟨.wallNow, wall⟩, ⟨.recordAssertionClaims c.id jti iat exp, some .failed⟩])
            (.refused .invalidRequest [])) ∧
        (c1 ++ [⟨.wallNow, wall⟩, ⟨.recordAssertionClaims c.id jti iat exp, none⟩] <+: interactions t →
          tk.claimStr b!"aud" = none →
          RepliesWith cfg t o (c1 ++ [⟨.wallNow, wall⟩, ⟨.recordAssertionClaims c.id jti iat exp, none⟩])
            (.refused .invalidRequest b!"'aud' parameter not found in assertion")) ∧
        (∀ aud issuer, tk.claimStr b!"aud" = some aud → issuer ≠ [] → aud ≠ issuer →
          c1 ++ [⟨.wallNow, wall⟩, ⟨.recordAssertionClaims c.id jti iat exp, none⟩, ⟨.issuer, issuer⟩] <+: interactions t →
          RepliesWith cfg t o
            (c1 ++ [⟨.wallNow, wall⟩, ⟨.recordAssertionClaims c.id jti iat exp, none⟩, ⟨.issuer, issuer⟩])
            (.refused .invalidGrant (b!"invalid 'aud' parameter '" ++ aud ++ b!"' in assertion"))))) := by
  have key0 : ∀ {e}, grantTable lib r c now .jwt [] (.inr e) →
      (∀ a b d, e ≠ Reply.granted a b d) → RepliesWith cfg t o c1 e := by
    intro e h1 hn
    have := grant_row ha h h1 (by rwa [List.append_nil]) hn
    rwa [List.append_nil] at this
  refine ⟨fun hd => key0 (table_goOn hn (table_end (find_none ?_))) (by simp), fun tk hd hx => ?_, fun tk key wall hd hu hk => ?_⟩
  · rw [hd]; rintro _ ⟨⟩
  · refine key0 (table_goOn hn (table_next (c := []) (find_some hd) ?_)) (by simp)
    by_cases hu : UsableAlg tk
    · refine table_goOn (not_not_intro hu) (table_end (table_end (find_none ?_)))
      rcases hx with hx | hx
      · exact absurd hu hx
      · rw [hx]; rintro _ ⟨⟩
    · exact table_end (endIf_pos hu)
  · have row : ∀ {cs code desc}, assertionOf lib c (r.formValue b!"assertion") tk cs (.inr (.refused code desc)) →
        c1 ++ cs <+: interactions t → RepliesWith cfg t o (c1 ++ cs) (.refused code desc) := fun hx hp =>
      grant_row ha h (table_goOn hn (table_next (c := []) (find_some hd) (table_goOn (not_not_intro hu)
        (table_end hx)))) hp (by simp)
    refine ⟨fun x hp hx => row (assertionOf_fault hk hx) hp, fun exp iat jti hx he hi hj => ?_⟩
    obtain ⟨k1, k2, k3⟩ := assertionOf_recorded (c := c) hk hx he hi hj
    exact ⟨fun hp => row k1 hp, fun hp ha => row (k2 ha) hp, fun aud issuer ha h1 h2 hp => row (k3 aud issuer ha h1 h2) hp⟩

/-- C79: how a client assertion is refused: when its algorithm is not usable, it has no `sub`, or the client has no key for it;
when there is no such client; with the first of the faults; when its record is refused (a replay); and when
it is for another audience.  One that cannot be decoded makes the handler panic. -/
theorem C79_client_assertion (hr : Registered cfg r (kind.handler lib)) (h : Runs (handler cfg lib r) t o)
    (hm : r.method = b!"POST") (hg : r.formValue b!"grant_type" ≠ [])
    (hs : ∀ cid sec b, ¬ Presented cfg.acceptance r cid sec b) (hacc : cfg.acceptClientAssertion = true) {a : GoStr}
    (ha : PresentedAssertion r a) :
    (lib.jwtDecode a = none → RepliesWith cfg t o [] .crash) ∧
    (∀ tk, lib.jwtDecode a = some tk →
      (¬ UsableAlg tk → RepliesWith cfg t o [] (.refused .invalidGrant b!"assertion unverifiable")) ∧
      (UsableAlg tk → tk.claimStr b!"sub" = none →
        RepliesWith cfg t o [] (.refused .invalidRequest b!"'sub' parameter not found in assertion")) ∧
      (∀ sub, UsableAlg tk → tk.claimStr b!"sub" = some sub →
        (∀ v, [⟨.findClientById sub, (v, some .failed)⟩] <+: interactions t →
          RepliesWith cfg t o [⟨.findClientById sub, (v, some .failed)⟩] (.refused .invalidClient [])) ∧
        (∀ c, [⟨.findClientById sub, (some c, none)⟩] <+: interactions t →
          c.assertionKey (tk.alg.getD []) (tk.kid.getD []) = none →
          RepliesWith cfg t o [⟨.findClientById sub, (some c, none)⟩]
            (.refused .invalidGrant b!"assertion unverifiable")) ∧
        (∀ c key wall, c.assertionKey (tk.alg.getD []) (tk.kid.getD []) = some key →
          (∀ x, [⟨.findClientById sub, (some c, none)⟩, ⟨.wallNow, wall⟩] <+: interactions t →
            FirstOf (assertionFaults lib a tk key wall) x →
            RepliesWith cfg t o [⟨.findClientById sub, (some c, none)⟩, ⟨.wallNow, wall⟩] (.refused x.1 x.2)) ∧
          (∀ exp iat jti, (∀ y ∈ assertionFaults lib a tk key wall, ¬ y.1) →
            NumberClaim tk b!"exp" exp → RecordedIat tk iat → RecordedJti tk jti →
            ([⟨.findClientById sub, (some c, none)⟩, ⟨.wallNow, wall⟩,
                ⟨.recordAssertionClaims c.id jti iat exp, some .failed⟩] <+: interactions t →
              RepliesWith cfg t o [⟨.findClientById sub, (some c, none)⟩, ⟨.wallNow, wall⟩,
                ⟨.recordAssertionClaims c.id jti iat exp, some .failed⟩] (.refused .invalidRequest [])) ∧
            ([⟨.findClientById sub, (some c, none)⟩, ⟨.wallNow, wall⟩,
                ⟨.recordAssertionClaims c.id jti iat exp, none⟩] <+: interactions t → tk.claimStr b!"aud" = none →
              RepliesWith cfg t o [⟨.findClientById sub, (some c, none)⟩, ⟨.wallNow, wall⟩,
                ⟨.recordAssertionClaims c.id jti iat exp, none⟩]
                (.refused .invalidRequest b!"'aud' parameter not found in assertion")) ∧
            (∀ aud issuer, tk.claimStr b!"aud" = some aud → issuer ≠ [] → aud ≠ issuer →
              [⟨.findClientById sub, (some c, none)⟩, ⟨.wallNow, wall⟩,
                ⟨.recordAssertionClaims c.id jti iat exp, none⟩, ⟨.issuer, issuer⟩] <+: interactions t →
              RepliesWith cfg t o [⟨.findClientById sub, (some c, none)⟩, ⟨.wallNow, wall⟩,
                ⟨.recordAssertionClaims c.id jti iat exp, none⟩, ⟨.issuer, issuer⟩]
                (.refused .invalidGrant (b!"invalid 'aud' parameter '" ++ aud ++ b!"' in assertion"))))))) := by
  have row : ∀ {cs e}, clientByAssertion lib a cs (.inr e) → cs <+: interactions t →
      (∀ a b d, e ≠ Reply.granted a b d) → RepliesWith cfg t o cs e := fun hx hp hn =>
    clientOf_row (registered_kind hr) h hm hg hr
      (table_next (c := []) (find_some (a := Credential.assertion a) ⟨hs, hacc, ha⟩) hx) hp hn
  refine ⟨fun hd => row (table_end (find_none ?_)) ⟨_, rfl⟩ (by simp), fun tk hd => ⟨fun hu => ?_, fun hu hsub => ?_,
    fun sub hu hsub => ⟨fun v hp => ?_, fun c hp hk => ?_, fun c key wall hk => ?_⟩⟩⟩
  · rw [hd]; rintro _ ⟨⟩
  · exact row (table_next (c := []) (find_some hd) (table_end (endIf_pos hu))) ⟨_, rfl⟩ (by simp)
  · refine row (table_next (c := []) (find_some hd) (table_goOn (not_not_intro hu) (table_end (find_none ?_)))) ⟨_, rfl⟩ (by simp)
    rw [hsub]; rintro _ ⟨⟩
  · exact row (table_next (c := []) (find_some hd) (table_goOn (not_not_intro hu)
      (table_next (c := []) (find_some hsub) (table_end (.refused rfl))))) hp (by simp)
  · refine row (table_next (c := []) (find_some hd) (table_goOn (not_not_intro hu)
      (table_next (c := []) (find_some hsub) (table_got rfl (table_end (table_end (find_none ?_))))))) hp (by simp)
    rw [hk]; rintro _ ⟨⟩
  · have row' : ∀ {cs code desc}, assertionOf lib c a tk cs (.inr (.refused code desc)) →
        ⟨.findClientById sub, (some c, none)⟩ :: cs <+: interactions t →
        RepliesWith cfg t o (⟨.findClientById sub, (some c, none)⟩ :: cs) (.refused code desc) := fun hx hp =>
      row (table_next (c := []) (find_some hd) (table_goOn (not_not_intro hu)
        (table_next (c := []) (find_some hsub) (table_got rfl (table_end hx))))) hp (by simp)
    refine ⟨fun x hp hx => row' (assertionOf_fault hk hx) hp, fun exp iat jti hx he hi hj => ?_⟩
    obtain ⟨k1, k2, k3⟩ := assertionOf_recorded (c := c) hk hx he hi hj
    exact ⟨fun hp => row' k1 hp, fun hp ha => row' (k2 ha) hp, fun aud issuer ha h1 h2 hp => row' (k3 aud issuer ha h1 h2) hp⟩

/-- An expired assertion (the sample token expires at 2000). -/
theorem sample_expired : FirstOf (assertionFaults Sample.lib b!"tok" Sample.jwt (.bytes b!"key") 2001)
    (.invalidGrant, b!"assertion expired") := by
  refine ⟨[_], _, _, rfl, ?_, ?_⟩
  · simp only [List.mem_singleton, forall_eq]
    exact not_not_intro ⟨by decide +kernel, rfl⟩
  · intro h
    obtain ⟨n, h1, h2⟩ := h _ rfl
    rcases h1 with h1 | h1 | ⟨h1, -⟩
    · cases h1; revert h2; decide
    · cases h1
    · cases h1

example : RepliesWith Sample.tokenCfg (tokenRun { now := 2001 } (Sample.post Sample.jwtBody)).1
    (tokenRun { now := 2001 } (Sample.post Sample.jwtBody)).2.1
    ([⟨.findClientById b!"client", (some Sample.client, none)⟩, ⟨.now, (2001 : Int64)⟩] ++ [⟨.wallNow, (2001 : Int64)⟩])
    (.refused .invalidGrant b!"assertion expired") := by
  obtain ⟨h1, h2, h3, c1, h4, h5⟩ := tokenRun_admitted .jwt Sample.jwtBody (by decide +kernel) rfl rfl
  have h5 : c1 = [⟨.findClientById b!"client", (some Sample.client, none)⟩] := (List.append_inj_left' h5 rfl).symm
  subst h5
  have h6 : (Sample.post Sample.jwtBody).formValue b!"assertion" = b!"tok" := by decide +kernel
  have h7 := (C79_jwt_grant ⟨h1, h2, h3, _, h4, rfl⟩ (Sample.World.runs { now := 2001 } _) (by decide +kernel) ⟨_, rfl⟩).2.2
    Sample.jwt (.bytes b!"key") 2001 (by rw [h6]; rfl) ⟨b!"HS256", by decide, rfl⟩ rfl
  rw [h6] at h7
  exact h7.1 _ ⟨_, rfl⟩ sample_expired

example : RepliesWith Sample.tokenCfg (tokenRun { now := 2001 } (Sample.postAssertion b!"tok" Sample.ccBody)).1
    (tokenRun { now := 2001 } (Sample.postAssertion b!"tok" Sample.ccBody)).2.1
    [⟨.findClientById b!"client", (some Sample.client, none)⟩, ⟨.wallNow, (2001 : Int64)⟩]
    (.refused .invalidGrant b!"assertion expired") := by
  have h0 : (Sample.postAssertion b!"tok" Sample.ccBody).basicAuth = none := by decide +kernel
  refine (((C79_client_assertion (cfg := Sample.tokenCfg) (r := Sample.postAssertion b!"tok" Sample.ccBody) (lib := Sample.lib) (kind := .client) rfl
    (Sample.World.runs { now := 2001 } _) rfl (by decide +kernel) (fun cid sec b h => ?_) rfl
    ⟨by decide +kernel, by decide, by decide +kernel⟩).2 Sample.jwt rfl).2.2 b!"client" ⟨b!"HS256", by decide, rfl⟩
    (by decide +kernel)).2.2 Sample.client (.bytes b!"key") 2001 rfl |>.1 _ ⟨_, rfl⟩ sample_expired
  cases h with
  | header h => rw [h0] at h; cases h
  | body h => cases h
  | any h => cases h

/-! ## C15 -/

/-- The part of C15 that holds: a refused request has created a token only if it was a code exchange
in which, after the token was created, disabling the session failed, or an ID token was called for (the scope
of the authorization has `openid`) that the key of the client could not sign.  Missing: exactly these two cases
(`C15_false`). -/
theorem C15_no_token_partial {cfg : TokenCfg} {lib : Lib} {r : Req} {pre : List Event} {resp : HttpResp} (hb : AllBuiltIn lib cfg)
    (h : Runs (handler cfg lib r) (pre ++ [wrote resp]) (.ok ())) (hne : resp.status ≠ 200)
    {e : Event} (he : e ∈ pre) (hi : Issued e) :
    Registered cfg r (Grant.authorizationCode lib) ∧
    ((∃ sess err, ⟨.disableSession sess, some err⟩ ∈ pre) ∨
     (∃ (c : Client) (id : Int64) (info : AuthInfo), Authenticated cfg lib r c pre ∧
        ⟨.findActiveAuthInfoById id, (some info, none)⟩ ∈ pre ∧ HasWord info.scope b!"openid" ∧
        ¬ KeyFits lib c.idTokenAlg c.idTokenKey)) := by
  obtain ⟨h1, h2⟩ := no_token_of_refused hb h hne he hi
  refine ⟨h1, ?_⟩
  rcases h2 with h2 | ⟨c, sess, info, now, iss, h3, h4, _, _, h5, h6⟩
  · exact .inl h2
  · exact .inr ⟨c, sess.authId, info, h3, h4, scope_hasWord.1 h5, rawGen_none.1 h6⟩

/-- Both cases occur: the session cannot be disabled; the client has no key. -/
example : (({ disable := some .failed } : Sample.World).run (handler Sample.tokenCfg Sample.lib (Sample.post Sample.codeBody))).1.any
      (fun e => match e with | ⟨.createOAuthToken _ _, (some _, none)⟩ => true | _ => false) = true ∧
    ({ disable := some .failed } : Sample.World).status (handler Sample.tokenCfg Sample.lib (Sample.post Sample.codeBody)) ≠ some 200 ∧
    (({ client := (some { Sample.client with idTokenKey := none }, none) } : Sample.World).run
      (handler Sample.tokenCfg Sample.lib (Sample.post Sample.codeBody))).1.any
      (fun e => match e with | ⟨.createOAuthToken _ _, (some _, none)⟩ => true | _ => false) = true ∧
    ({ client := (some { Sample.client with idTokenKey := none }, none) } : Sample.World).status
      (handler Sample.tokenCfg Sample.lib (Sample.post Sample.codeBody)) ≠ some 200 := by
  decide +kernel

end Goidc.Props
