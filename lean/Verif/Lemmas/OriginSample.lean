import Verif.Lemmas.OriginStore
import Verif.Props.Store

/-! # A complete sample deployment: consent, code, token, protected request -/

namespace Goidc.Sample

open Spec TokenEndpoint AuthzEndpoint ResourceProtector Props

/-- Let a request end where its body ends; panic unless the result is `good`. -/
def closed {α : Type} (p : Prog α) (good : α → Bool) : Prog Unit := p.bind fun a => if good a then .ret () else .panic

theorem closed_steps {α : Type} {p : Prog α} {good : α → Bool} {t : List Event} (h : Steps (closed p good) t) : Steps p t := by
  unfold closed at h
  induction p generalizing t with
  | ret a => simp only [Prog.bind] at h; split at h <;> exact h
  | panic => exact h
  | call q k ih =>
    rcases h with rfl | ⟨r, t', rfl, h⟩
    · exact .inl rfl
    · exact .inr ⟨r, t', rfl, ih r h⟩

theorem closed_runs {α : Type} {p : Prog α} {good : α → Bool} {t : List Event} (h : Runs (closed p good) t (.ok ())) :
    ∃ a, Runs p t (.ok a) ∧ good a = true := by
  unfold closed at h
  induction p generalizing t with
  | ret a =>
    simp only [Prog.bind] at h
    split at h
    · obtain ⟨rfl, _⟩ := h; exact ⟨a, ⟨rfl, rfl⟩, by assumption⟩
    · cases h.2
  | panic => cases h.2
  | call q k ih =>
    obtain ⟨r, t', rfl, h⟩ := h
    obtain ⟨a, h1, h2⟩ := ih r h
    exact ⟨a, ⟨r, t', rfl, h1⟩, h2⟩

/-- What remains of the requests after a schedule. -/
def remaining {σ : Type} (h : σ → (q : Query) → Option (q.Resp × σ)) :
    List Nat → (Nat → Prog Unit) → σ → Nat → Prog Unit
  | [], ths, _ => ths
  | i :: is, ths, s =>
    match ths i with
    | .call q k =>
      match h s q with
      | some (r, s') => remaining h is (setThread ths i (k r)) s'
      | none => ths
    | _ => remaining h is ths s

theorem remaining_runs {σ : Type} (h : σ → (q : Query) → Option (q.Resp × σ)) (is : List Nat) (ths : Nat → Prog Unit) (s : σ)
    (j : Nat) {u : List Event} {o : Outcome Unit} (hr : Runs (remaining h is ths s j) u o) :
    Runs (ths j) (callsOf j (schedule h is ths s).1 ++ u) o := by
  induction is generalizing ths s with
  | nil => exact hr
  | cons i is ih =>
    unfold schedule
    unfold remaining at hr
    cases hi : ths i with
    | ret a => simp only [hi] at hr; exact ih ths s hr
    | panic => simp only [hi] at hr; exact ih ths s hr
    | call q k =>
      simp only [hi] at hr
      dsimp only
      cases hh : h s q with
      | none => simp only [hh] at hr; exact hr
      | some rs =>
        obtain ⟨r, s'⟩ := rs
        simp only [hh] at hr
        have hj := ih _ _ hr
        dsimp only
        by_cases hij : i = j
        · subst hij
          rw [callsOf_cons_self]
          simp only [setThread, if_true] at hj
          rw [hi]
          exact ⟨_, _, rfl, hj⟩
        · rw [callsOf_cons_ne hij]
          simp only [setThread, if_neg (fun he : j = i => hij he.symm)] at hj
          exact hj

/-- Whether a request is over. -/
def over : Prog Unit → Bool
  | .ret _ => true
  | _ => false

theorem over_runs {p : Prog Unit} (h : over p = true) : Runs p [] (.ok ()) := by
  cases p with
  | ret a => exact ⟨rfl, rfl⟩
  | panic => cases h
  | call q k => cases h

/-- A browser in front of the reference store: user 5 is logged in since 990, sees consent screens and
continues the request that was shown last. -/
def webDet (s : StoreState × Option Request) (q : Query) : Option (q.Resp × (StoreState × Option Request)) :=
  match q with
  | .showConsentScreen _ req => some (true, (s.1, some req))
  | .continue_ => match s.2 with
    | some req => some (some (some req), s)
    | none => some (none, s)
  | .chooseLocale l => some (some l, s)
  | .confirmLoginSession => some (some true, s)
  | .getAuthTime => some (some 990, s)
  | .getLoginUserId => some (some 5, s)
  | .createAuthorizationCode => some (some b!"code", s)
  | q => match s.1.det 1000 q with
    | some (r, s') => some (r, (s', s.2))
    | none => none

/-- What `webDet` does to the remembered request. -/
def Web (s : StoreState × Option Request) (e : Event) (s' : StoreState × Option Request) : Prop :=
  s.1.Answers e s'.1 ∧ (∀ req, s'.2 = some req → s.2 = some req ∨ ∃ clnt, e = ⟨.showConsentScreen clnt req, true⟩) ∧
  ∀ req, e = ⟨.continue_, some (some req)⟩ → s.2 = some req

theorem webDet_step (s) (q) (r : q.Resp) (s') (h : webDet s q = some (r, s')) : Web s ⟨q, r⟩ s' := by
  have base : ∀ (q : Query) (r : q.Resp) s', (match s.1.det 1000 q with
      | some (r, s') => some (r, (s', s.2))
      | none => none) = some (r, s') → (∀ req, (⟨q, r⟩ : Event) ≠ ⟨.continue_, some (some req)⟩) → Web s ⟨q, r⟩ s' := by
    intro q r s' h hne
    split at h
    · rename_i r0 s0 hd
      simp only [Option.some.injEq, Prod.mk.injEq] at h
      obtain ⟨rfl, rfl⟩ := h
      exact ⟨StoreState.det_step hd, fun req h => .inl h, fun req h => absurd h (hne req)⟩
    · cases h
  unfold webDet at h
  cases q
  case continue_ =>
    dsimp only at h
    split at h <;> simp only [Option.some.injEq, Prod.mk.injEq] at h <;> obtain ⟨rfl, rfl⟩ := h
    · rename_i req hq
      refine ⟨rfl, fun _ h => .inl h, fun req' he => ?_⟩
      cases he; exact hq
    · exact ⟨rfl, fun _ h => .inl h, fun req' he => by cases he⟩
  case showConsentScreen clnt req =>
    simp only [Option.some.injEq, Prod.mk.injEq] at h
    obtain ⟨rfl, rfl⟩ := h
    refine ⟨rfl, fun req' h => .inr ⟨clnt, ?_⟩, fun _ h => by cases h⟩
    cases h; rfl
  all_goals first
    | (refine base _ _ _ h ?_; rintro req ⟨⟩)
    | (simp only [Option.some.injEq, Prod.mk.injEq] at h
       obtain ⟨rfl, rfl⟩ := h
       exact ⟨rfl, fun _ h => .inl h, fun _ h => by cases h⟩)

theorem web_shown {s s' : StoreState × Option Request} {t : List Event} (h : Chain Web s t s') {seen : List Event}
    (hs : ∀ req, s.2 = some req → ∃ clnt, (⟨.showConsentScreen clnt req, true⟩ : Event) ∈ seen) :
    (∀ a b req, t = a ++ ⟨.continue_, some (some req)⟩ :: b →
      ∃ clnt, (⟨.showConsentScreen clnt req, true⟩ : Event) ∈ seen ++ a) := by
  induction h generalizing seen with
  | nil => intro a b req h; simp at h
  | cons h1 h2 ih =>
    rename_i e t
    obtain ⟨_, hk, hc⟩ := h1
    intro a b req he
    cases a with
    | nil =>
      simp only [List.nil_append, List.cons.injEq] at he
      simpa using hs req (hc req he.1)
    | cons x a =>
      simp only [List.cons_append, List.cons.injEq] at he
      obtain ⟨rfl, he⟩ := he
      have := ih (seen := seen ++ [e]) (fun req' hr => by
        rcases hk req' hr with h | ⟨clnt, rfl⟩
        · obtain ⟨clnt, hm⟩ := hs req' h; exact ⟨clnt, by simp [hm]⟩
        · exact ⟨clnt, by simp⟩) a b req he
      simpa using this

/-- A browser that remembers the last shown request continues only what was shown. -/
theorem web_continuesShown {s s' : StoreState} {o : Option Request} {g : List (Nat × Event)}
    (h : Chain Web (s, none) (g.map (·.2)) (s', o)) : ContinuesShown g := by
  intro a b k req he
  obtain ⟨clnt, hm⟩ := web_shown h (seen := []) (by simp) (a.map (·.2)) (b.map (·.2)) req (by rw [he]; simp)
  obtain ⟨⟨k', e⟩, hm, rfl⟩ := List.mem_map.1 hm
  exact ⟨k', clnt, hm⟩

theorem web_store {s s' : StoreState × Option Request} {t : List Event} (h : Chain Web s t s') : StoreRun s.1 t s'.1 := by
  induction h with
  | nil => exact .nil _
  | cons h1 _ ih => exact .cons h1.1 ih

/-- An authorization request that asks for consent. -/
def consentReq : Req where
  method := b!"GET"
  path := b!"/authorize"
  headers := []
  body := []
  query := [(b!"client_id", b!"client"), (b!"redirect_uri", b!"https://app/cb"), (b!"response_type", b!"code"),
    (b!"scope", b!"openid offline_access email"), (b!"prompt", b!"consent"), (b!"code_verifier", b!"verifier"), (b!"nonce", b!"n")]

/-- A protected request with the token the store issues. -/
def bearerReq : Req where
  method := b!"GET"
  path := b!"/me"
  headers := [(b!"Authorization", b!"Bearer ACCESS_TOKEN_0")]
  body := []
  query := []

def protectorCfg : ProtectorCfg := ResourceProtector.new b!"realm"

/-- The requests of the sample deployment: the consent screen is shown, the user accepts, the client
redeems the code and then uses the token. -/
def webThreads : Nat → Prog Unit
  | 0 => closed (handleRequest Policy.default lib consentReq) id
  | 1 => closed (completeRequest Policy.default lib consentReq) id
  | 2 => handler tokenCfg lib (post codeBody)
  | 3 => closed (validate protectorCfg lib bearerReq) (·.1)
  | _ => .ret ()

/-- The same requests. -/
def webEndpoints : Nat → Thread
  | 0 => ⟨handleRequest Policy.default lib consentReq⟩
  | 1 => ⟨completeRequest Policy.default lib consentReq⟩
  | 2 => ⟨handler tokenCfg lib (post codeBody)⟩
  | 3 => ⟨validate protectorCfg lib bearerReq⟩
  | _ => ⟨(.ret () : Prog Unit)⟩

def webSchedule : List Nat := List.replicate 20 0 ++ List.replicate 20 1 ++ List.replicate 20 2 ++ List.replicate 20 3

def webStart : StoreState := StoreState.init [⟨5, b!"u", b!"p"⟩] [client]

def webRun : List (Nat × Event) × (StoreState × Option Request) := schedule webDet webSchedule webThreads (webStart, none)

/-- The calls of the sample deployment. -/
def webCalls : List (Nat × Event) := webRun.1

theorem web_interleaves : Interleaves webEndpoints webCalls := by
  intro i
  have h := schedule_interleaves webDet webSchedule webThreads (webStart, none) i
  match i with
  | 0 => exact closed_steps h
  | 1 => exact closed_steps h
  | 2 => exact h
  | 3 => exact closed_steps h
  | _ + 4 => exact h

theorem web_endpoints (hb : AllBuiltIn lib tokenCfg) : ∀ i, Endpoint (webEndpoints i) := by
  intro i
  match i with
  | 0 => exact .authorize
  | 1 => exact .complete
  | 2 => exact .token hb
  | 3 => exact .protect
  | _ + 4 => exact .idle

theorem web_chain : Chain Web (webStart, none) (webCalls.map (·.2)) webRun.2 :=
  schedule_chain webDet_step webSchedule webThreads (webStart, none)

theorem web_continues : ContinuesShown webCalls := web_continuesShown (s' := webRun.2.1) (o := webRun.2.2) web_chain

theorem web_keeps : KeepsRecords webCalls :=
  store_keeps (web_store web_chain) (by decide +kernel)

/-- The protected request of the sample deployment is admitted. -/
theorem web_admitted : ∃ r', Runs (validate protectorCfg lib bearerReq) (callsOf 3 webCalls) (.ok (true, r')) := by
  have h := remaining_runs webDet webSchedule webThreads (webStart, none) 3 (over_runs (by decide +kernel))
  rw [List.append_nil] at h
  obtain ⟨⟨b, r'⟩, h1, h2⟩ := closed_runs h
  dsimp only at h2
  subst h2
  exact ⟨r', h1⟩

end Goidc.Sample
