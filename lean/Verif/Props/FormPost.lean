import Verif.Props.AuthComplete
import Verif.Lemmas.Html

/-! # C45: the form_post page -/

namespace Goidc.Props

open Spec AuthzEndpoint

variable {policy : Policy} {lib : Lib} {r : Req} {t pre : List Event} {resp : HttpResp} {req : Request}

/-- The names goidc gives to response parameters (`rexpires_in` is what implicit responses use). -/
def responseNames : List GoStr :=
  [b!"code", b!"state", b!"scope", b!"access_token", b!"token_type", b!"expires_in", b!"rexpires_in",
   b!"id_token", b!"error", b!"error_description"]

theorem responseNames_plain : ∀ k ∈ responseNames, 34 ∉ k ∧ unescape k = k := by decide +kernel

theorem plain_of_names {l : Params} (h : ∀ kv ∈ l, kv.1 ∈ responseNames) : PlainNames l :=
  fun kv hkv => responseNames_plain _ (h kv hkv)

theorem errorResponse_names {typ desc state : GoStr} : ∀ kv ∈ errorResponse typ desc state, kv.1 ∈ responseNames := by
  intro kv hkv
  unfold errorResponse at hkv
  simp only [List.mem_cons, List.mem_append] at hkv
  rcases hkv with rfl | h | h
  · simp [responseNames]
  · split at h
    · simp at h
    · simp at h; subst h; simp [responseNames]
  · split at h
    · simp at h
    · simp at h; subst h; simp [responseNames]

theorem stateParam_names : ∀ kv ∈ stateParam req, kv.1 ∈ responseNames := by
  intro kv hkv
  unfold stateParam at hkv
  split at hkv
  · simp at hkv
  · simp at hkv; subst hkv; simp [responseNames]

theorem scopeParam_names : ∀ kv ∈ scopeParam req, kv.1 ∈ responseNames := by
  intro kv hkv
  unfold scopeParam at hkv
  split at hkv
  · simp at hkv
  · simp at hkv; subst hkv; simp [responseNames]

theorem tokenPart_names {info f key t atk ps} (hk : key ∈ responseNames) (h : TokenPart info f key t atk ps) :
    ∀ kv ∈ ps, kv.1 ∈ responseNames := by
  rcases h with ⟨_, tk, _, _, rfl⟩ | ⟨_, _, _, rfl⟩
  · intro kv hkv
    simp only [List.mem_cons, List.not_mem_nil, or_false] at hkv
    rcases hkv with rfl | rfl | rfl
    · simp [responseNames]
    · simp [responseNames]
    · exact hk
  · simp

theorem idPart_names {clnt info f authTime atk code t ps} (h : IdPart policy lib clnt info f req authTime atk code t ps) :
    ∀ kv ∈ ps, kv.1 ∈ responseNames := by
  rcases h with ⟨_, _, _, _, _, _, _, _, _, rfl, _⟩ | ⟨_, _, rfl⟩
  · simp [responseNames]
  · simp

theorem completeParts_names {info f w ps} (h : CompleteParts policy lib info req f w ps) :
    ∀ kv ∈ ps, kv.1 ∈ responseNames := by
  unfold CompleteParts at h
  split at h
  · obtain ⟨code, at_, _, rfl⟩ := h
    intro kv hkv
    rcases List.mem_cons.1 hkv with rfl | hkv
    · simp [responseNames]
    · exact stateParam_names kv hkv
  · obtain ⟨clnt, t1, atk, p1, at_, t2, p2, h1, h2, _, rfl⟩ := h
    intro kv hkv
    simp only [List.mem_append] at hkv
    rcases hkv with ((hkv | hkv) | hkv) | hkv
    · exact stateParam_names kv hkv
    · exact scopeParam_names kv hkv
    · exact tokenPart_names (by simp [responseNames]) h1 kv hkv
    · exact idPart_names h2 kv hkv
  · obtain ⟨code, at_, clnt, t1, atk, p1, t2, p2, h1, h2, _, rfl⟩ := h
    intro kv hkv
    simp only [List.mem_cons, List.mem_append] at hkv
    rcases hkv with rfl | ((hkv | hkv) | hkv) | hkv
    · simp [responseNames]
    · exact stateParam_names kv hkv
    · exact scopeParam_names kv hkv
    · exact tokenPart_names (by simp [responseNames]) h1 kv hkv
    · exact idPart_names h2 kv hkv
  · exact h.elim

/-- A 200 answer is the page that posts `params` to `uri`, up to their order, with nothing added: its
markup is fixed but for `uri` and the parameters, the part after the form tag reads as one hidden input
for each parameter with the parameter's exact value, and when `uri` itself is harmless in an attribute
the whole page reads as the intended one. -/
structure SafePage (body uri : GoStr) (params : Params) : Prop where
  values : ∃ (fields : Params) (inputs : GoStr), fields.Perm params ∧
    body = b!"<html><head><title>Submit This Form</title></head><body onload=\"javascript:document.forms[0].submit()\"><form method=\"post\" action=\"" ++
      uri ++ b!"\">" ++ inputs ++ b!"</form></body></html>" ∧
    htmlTokens inputs = some (fields.map fun kv =>
      .start b!"input" [(b!"type", b!"hidden"), (b!"name", kv.1), (b!"value", kv.2)])
  page : 34 ∉ uri → unescape uri = uri → ∃ fields : Params, fields.Perm params ∧
    htmlTokens body = some (submitPage uri fields)

theorem safePage {uri : GoStr} {ps : Params} {ch : Channel} (h : Delivers resp uri ps ch) (hs : resp.status = 200)
    (hn : ∀ kv ∈ ps, kv.1 ∈ responseNames) : SafePage resp.body uri ps := by
  cases ch with
  | query =>
    obtain ⟨_, _, _, h', _⟩ := h
    have := h'.1
    omega
  | fragment =>
    obtain ⟨_, _, _, h', _⟩ := h
    have := h'.1
    omega
  | form =>
    obtain ⟨fields, hp, hpost⟩ := h
    have hpl : PlainNames fields := plain_of_names fun kv hkv => hn kv (hp.mem_iff.1 hkv)
    refine ⟨⟨fields, fields.flatMap inputMarkup, hp, hpost.2.2.2, ?_⟩, fun h1 h2 => ⟨fields, hp, page_tokens hpost hpl h1 h2⟩⟩
    unfold htmlTokens
    rw [readHtml_inputs hpl]
    rfl

/-- C45, for `HandleRequest`: a 200 answer, at any point of any run, is a safe page for the request's
`redirect_uri`.  What is missing for the full claim is a `redirect_uri` with a quote (or an HTML character
reference) that the client nevertheless accepts: see `C45_false`. -/
theorem C45_handle_partial (h : Steps (handleRequest policy lib r) (pre ++ [wrote resp])) (hs : resp.status = 200) :
    ∃ params, SafePage resp.body (r.formValue b!"redirect_uri") params ∧
      ∀ kv ∈ params, kv.1 ∈ responseNames := by
  rcases handleRequest_wrote h with ⟨c, typ, desc, ch, _, hf, ha, hd⟩ | ⟨c, f, req, info, before, w, a, ps, rfl, _, hsu⟩
  · exact ⟨_, safePage hd hs errorResponse_names, errorResponse_names⟩
  · exact ⟨_, safePage hsu.delivers hs (completeParts_names hsu.parts), completeParts_names hsu.parts⟩

/-- C45, for `CompleteRequest`: the same for the continued request. -/
theorem C45_complete_partial (h : Steps (completeRequest policy lib r) (pre ++ [wrote resp])) (hs : resp.status = 200) :
    ∃ req params, ⟨.continue_, some (some req)⟩ ∈ pre ∧ SafePage resp.body req.redirectURI params ∧
      ∀ kv ∈ params, kv.1 ∈ responseNames := by
  obtain ⟨req, b, hm, hw, _⟩ := completeRequest_wrote h
  cases hw with
  | error _ _ hd => exact ⟨req, _, hm, safePage hd hs errorResponse_names, errorResponse_names⟩
  | success uid info f work after ps _ hf hwk hparts hrg hd =>
    exact ⟨req, _, hm, safePage hd hs (completeParts_names hparts), completeParts_names hparts⟩

/-- C45, for `CancelRequest`. -/
theorem C45_cancel_partial (h : Steps (cancelRequest lib r) (pre ++ [wrote resp])) (hs : resp.status = 200) :
    ∃ req, ⟨.continue_, some (some req)⟩ ∈ pre ∧
      SafePage resp.body req.redirectURI (errorResponse b!"access_denied" [] req.state) := by
  obtain ⟨_, o, hr⟩ := writeLast_complete writeLast_cancelRequest h
  generalize he : pre ++ [wrote resp] = t at hr
  have hmem : wrote resp ∈ t := he ▸ by simp
  cases cancelRequest_runs hr with
  | noRequest l => simp at hmem
  | nilRequest => simp at hmem
  | denied req t o hse =>
    rcases hse with ⟨_, rfl, _⟩ | ⟨_, a, resp', rfl, _, hd⟩
    · simp at hmem
    · rw [← List.cons_append] at he
      obtain ⟨rfl, rfl⟩ := snoc_inj he
      exact ⟨req, by simp, safePage hd hs errorResponse_names⟩

/-- A form_post request whose state tries to break out of the page. -/
def postGet : Req := authGet [(b!"response_type", b!"code"), (b!"scope", b!"openid"), (b!"response_mode", b!"form_post"),
  (b!"state", b!"\"><script>&amp;</script>")]

/-- Such an answer exists, and it reads as the intended page with the hostile state intact. -/
example : ∃ pre resp, Steps (handleRequest .default Sample.lib postGet) (pre ++ [wrote resp]) ∧ resp.status = 200 ∧
    htmlTokens resp.body = some (submitPage b!"https://app/cb"
      [(b!"code", b!"code"), (b!"state", b!"\"><script>&amp;</script>")]) := by
  obtain ⟨pre, resp, h, hp⟩ := world_success (w := consentedWorld) (p := handleRequest .default Sample.lib postGet)
    (P := fun resp => decide (resp.status = 200) && decide (htmlTokens resp.body = some (submitPage b!"https://app/cb"
      [(b!"code", b!"code"), (b!"state", b!"\"><script>&amp;</script>")])))
    (by decide +kernel) (by decide +kernel)
  simp only [Bool.and_eq_true, decide_eq_true_eq] at hp
  exact ⟨pre, resp, runs_steps h, hp⟩

/-- Both continuation handlers answer with a page when the request asked for it. -/
def postWorld : Sample.World :=
  { continued := some (some (continuedReq ⟨.authorizationCode, false, false⟩ b!"form_post")) }

example : ∃ pre resp, Steps (completeRequest .default Sample.lib anyReq) (pre ++ [wrote resp]) ∧ resp.status = 200 := by
  obtain ⟨pre, resp, h, hp⟩ := world_success (w := postWorld) (p := completeRequest .default Sample.lib anyReq)
    (P := fun resp => decide (resp.status = 200)) (by decide +kernel) (by decide +kernel)
  exact ⟨pre, resp, runs_steps h, of_decide_eq_true hp⟩

example : ∃ pre resp, Steps (cancelRequest Sample.lib anyReq) (pre ++ [wrote resp]) ∧ resp.status = 200 := by
  obtain ⟨pre, resp, h, hp⟩ := world_success (w := postWorld) (p := cancelRequest Sample.lib anyReq)
    (P := fun resp => decide (resp.status = 200)) (by decide +kernel) (by decide +kernel)
  exact ⟨pre, resp, runs_steps h, of_decide_eq_true hp⟩

/-- A redirect URI with markup in its query. -/
def evilURI : GoStr := b!"https://app/cb?\"><script>steal()</script>"

/-- A client that accepts every URI under its own origin. -/
def prefixWorld : Sample.World :=
  { client := (some { Sample.client with canUseRedirectURI := fun u => b!"https://app/".isPrefixOf u }, none) }

def evilGet : Req where
  method := b!"GET"
  path := b!"/authorize"
  headers := []
  body := []
  query := [(b!"client_id", b!"client"), (b!"redirect_uri", evilURI), (b!"response_mode", b!"form_post")]

theorem submitPage_start {uri : GoStr} {fields : Params} {n : List UInt8} {as}
    (h : .start n as ∈ submitPage uri fields) : n ∈ [b!"html", b!"head", b!"title", b!"body", b!"form", b!"input"] := by
  simp only [submitPage, List.mem_append, List.mem_map] at h
  have a : ∀ {l : List HtmlToken}, HtmlToken.start n as ∈ l → (l.all fun t => match t with
      | .start m _ => decide (m ∈ [b!"html", b!"head", b!"title", b!"body", b!"form", b!"input"]) | _ => true) = true →
      n ∈ [b!"html", b!"head", b!"title", b!"body", b!"form", b!"input"] := by
    intro l hm hall
    have := List.all_eq_true.1 hall _ hm
    simpa using this
  rcases h with ((((h | h) | h)) | h) | h
  · exact a h (by decide)
  · obtain ⟨_, _, h⟩ := h; cases h
  · exact a h (by rfl)
  · obtain ⟨_, _, h⟩ := h; cases h; simp
  · exact a h (by decide)

/-- C45 fails: with a client that accepts any URI below its origin, an attacker-chosen `redirect_uri`
puts a script into a page served by the provider. -/
theorem C45_false : ∃ (lib : Lib) (r : Req) (pre : List Event) (resp : HttpResp) (clnt : Client) (ts : List HtmlToken),
    Steps (handleRequest .default lib r) (pre ++ [wrote resp]) ∧
    ⟨.findClientById (r.formValue b!"client_id"), (some clnt, none)⟩ ∈ pre ∧
    (∀ u, clnt.canUseRedirectURI u = true ↔ ∃ p, u = b!"https://app/" ++ p) ∧
    resp.status = 200 ∧ htmlTokens resp.body = some ts ∧ .start b!"script" [] ∈ ts ∧
    ∀ uri fields, htmlTokens resp.body ≠ some (submitPage uri fields) := by
  cases hl : lastWrite (prefixWorld.run (handleRequest .default Sample.lib evilGet)).1 with
  | none => exact absurd hl (by decide +kernel)
  | some resp =>
    have hP : (lastWrite (prefixWorld.run (handleRequest .default Sample.lib evilGet)).1).any (fun resp =>
        decide (resp.status = 200) && ((htmlTokens resp.body).any fun ts => decide (.start b!"script" [] ∈ ts))) = true := by
      decide +kernel
    rw [hl] at hP
    simp only [Option.any_some, Bool.and_eq_true, decide_eq_true_eq, Option.any_eq_true] at hP
    obtain ⟨hst, ts, hts, hmem⟩ := hP
    obtain ⟨pre, hp⟩ := lastWrite_eq hl
    have hr := prefixWorld.runs (handleRequest .default Sample.lib evilGet)
    rw [hp] at hr
    have hw := handleRequest_wrote (runs_steps hr)
    have hfound : ∃ clnt, FoundClient evilGet clnt pre := by
      rcases hw with ⟨c, _, _, _, _, hf, _⟩ | ⟨c, f, req, info, before, w, a, ps, rfl, _, hsu⟩
      · exact ⟨c, hf⟩
      · exact ⟨c, foundClient_mono hsu.found fun e he => by simp [he]⟩
    obtain ⟨clnt, e, _, hf⟩ := hfound
    have hans := exec_answers prefixWorld.answer (handleRequest .default Sample.lib evilGet) _ (by
      have : (⟨.findClientById (evilGet.formValue b!"client_id"), (some clnt, e)⟩ : Event) ∈ pre ++ [wrote resp] := by
        simp [hf]
      rw [← hp] at this
      exact this)
    obtain ⟨hc, he⟩ := Prod.mk.inj hans
    subst he
    obtain rfl := Option.some.inj hc
    refine ⟨Sample.lib, evilGet, pre, resp, _, ts, runs_steps hr, hf, fun u => ?_, hst, hts, hmem, ?_⟩
    · rw [List.isPrefixOf_iff_prefix]
      exact ⟨fun ⟨p, h⟩ => ⟨p, h.symm⟩, fun ⟨p, h⟩ => ⟨p, h.symm⟩⟩
    · intro uri fields heq
      rw [hts] at heq
      obtain rfl := Option.some.inj heq
      exact absurd (submitPage_start hmem) (by decide)

end Goidc.Props
