import Verif.Lemmas.AuthHoare

/-! # Runs of the completion of an authorization request -/

namespace Goidc

open Spec AuthzEndpoint

/-- The calls completion makes before it answers. -/
def Query.isWork : Query → Bool
  | .createAuthorizationCode | .getAuthTime | .createAuthSession _ _ | .findClientById _
  | .createOAuthToken _ false | .issuer | .now | .log _ => true
  | _ => false

/-- Only such calls are made. -/
def Work (t : List Event) : Prop := ∀ e ∈ t, Query.isWork e.q = true

theorem work_nil : Work [] := by simp [Work]
theorem work_cons {e : Event} {t} : Work (e :: t) ↔ Query.isWork e.q = true ∧ Work t := by simp [Work]
theorem work_append {s t : List Event} : Work (s ++ t) ↔ Work s ∧ Work t := by
  simp only [Work, List.mem_append]
  exact ⟨fun h => ⟨fun e he => h e (.inl he), fun e he => h e (.inr he)⟩,
    fun h e he => he.elim (h.1 e) (h.2 e)⟩
theorem work_noWrite {t : List Event} (h : Work t) : NoWrite t := by
  intro e he
  have := h e he
  cases e with | mk q r => cases q <;> first | rfl | simp [Query.isWork] at this

/-- The access-token part of a front-channel response: events, the token used for `at_hash`, and
parameters. -/
def TokenPart (info : Option AuthInfo) (f : Flow) (key : GoStr) (t : List Event) (atk : GoStr)
    (ps : Params) : Prop :=
  (f.requireAccessToken = true ∧ ∃ tk, t = [⟨.createOAuthToken info false, (some tk, none)⟩] ∧
    atk = tk.accessToken ∧
    ps = [(b!"access_token", tk.accessToken), (b!"token_type", b!"bearer"),
      (key, itoa tk.accessTokenExpiresIn)]) ∨
  (f.requireAccessToken = false ∧ t = [] ∧ atk = [] ∧ ps = [])

/-- The ID-token part of a front-channel response. -/
def IdPart (policy : Policy) (lib : Lib) (clnt : Option Client) (info : Option AuthInfo) (f : Flow)
    (req : Request) (authTime : Int64) (atk : GoStr) (code : Option GoStr) (t : List Event)
    (ps : Params) : Prop :=
  (f.requireIdToken = true ∧ ∃ c i iss now idt, clnt = some c ∧ info = some i ∧
    t = [⟨.issuer, iss⟩, ⟨.now, now⟩] ∧ ps = [(b!"id_token", idt)] ∧
    (match code with
      | none => IdToken.genForImplicit lib c.idTokenAlg c.idTokenKey c.idTokenKeyId iss i.clientId
          i.subject req.nonce policy.idTokenExpiresIn authTime atk now
      | some code => IdToken.genForHybrid lib c.idTokenAlg c.idTokenKey c.idTokenKeyId iss
          i.clientId i.subject req.nonce policy.idTokenExpiresIn authTime atk code now) = some idt) ∨
  (f.requireIdToken = false ∧ t = [] ∧ ps = [])

/-- What a successful completion did before answering, and the parameters of its answer. -/
def CompleteParts (policy : Policy) (lib : Lib) (info : Option AuthInfo) (req : Request) (f : Flow)
    (t : List Event) (ps : Params) : Prop :=
  match f.type with
  | .authorizationCode => ∃ code authTime,
      t = [⟨.createAuthorizationCode, some code⟩, ⟨.getAuthTime, some authTime⟩,
        ⟨.createAuthSession info (req.toSession code policy.authSessionExpiresIn authTime), none⟩] ∧
      ps = (b!"code", code) :: stateParam req
  | .implicit => ∃ clnt t1 atk p1 authTime t2 p2,
      TokenPart info f b!"rexpires_in" t1 atk p1 ∧
      IdPart policy lib clnt info f req authTime atk none t2 p2 ∧
      t = ⟨.findClientById req.clientId, (clnt, none)⟩ :: (t1 ++ ⟨.getAuthTime, some authTime⟩ :: t2) ∧
      ps = stateParam req ++ scopeParam req ++ p1 ++ p2
  | .hybrid => ∃ code authTime clnt t1 atk p1 t2 p2,
      TokenPart info f b!"expires_in" t1 atk p1 ∧
      IdPart policy lib clnt info f req authTime atk (some code) t2 p2 ∧
      t = ⟨.createAuthorizationCode, some code⟩ :: ⟨.getAuthTime, some authTime⟩ ::
        ⟨.createAuthSession info (req.toSession code policy.authSessionExpiresIn authTime), none⟩ ::
        ⟨.findClientById req.clientId, (clnt, none)⟩ :: (t1 ++ t2) ∧
      ps = (b!"code", code) :: (stateParam req ++ scopeParam req ++ p1 ++ p2)
  | .directGrant => False

/-- Why completion may panic. -/
def CompletePanic (lib : Lib) (rh : GoStr) (info : Option AuthInfo) (req : Request) (t : List Event) : Prop :=
  (t = [] ∧ req.flow = none) ∨
  (lib.urlParseOk req.redirectURI = false ∧ channel rh ≠ .form) ∨
  (⟨.createOAuthToken info false, (none, none)⟩ ∈ t) ∨
  (⟨.findClientById req.clientId, (none, none)⟩ ∈ t) ∨
  info = none

/-- The run ends with a failed completion. -/
def CompleteFailed (rh : GoStr) (req : Request) (t : List Event) (o : Outcome Bool) : Prop :=
  o = .ok false ∧ ∃ t1 t2 resp, t = t1 ++ t2 ∧ Work t1 ∧ SentTrace t2 resp ∧
    Delivers resp req.redirectURI (errorResponse b!"server_error" [] req.state) (channel rh)

/-- All the ways completion can end. -/
def Completion (policy : Policy) (lib : Lib) (rh : GoStr) (info : Option AuthInfo) (req : Request)
    (t : List Event) (o : Outcome Bool) : Prop :=
  (o = .panic ∧ Work t ∧ CompletePanic lib rh info req t) ∨
  (o = .ok false ∧ t = [] ∧ ∃ f, req.flow = some f ∧ f.type = .directGrant) ∨
  CompleteFailed rh req t o ∨
  (o = .ok true ∧ ∃ f t1 t2 ps resp, req.flow = some f ∧ t = t1 ++ t2 ∧ Work t1 ∧
    CompleteParts policy lib info req f t1 ps ∧ SentTrace t2 resp ∧
    Delivers resp req.redirectURI ps (channel rh))

section
variable {policy : Policy} {lib : Lib} {r : Req} {rh : GoStr} {info : Option AuthInfo} {req : Request}
  {t : List Event} {o : Outcome Bool}

/-- Failing completion: the two possible ends, after the calls `t0`. -/
theorem completeFail_runs {t0 : List Event} (hw : Work t0) (h : Runs (completeFail lib r rh req) t o) :
    Completion policy lib rh info req (t0 ++ t) o := by
  unfold completeFail AuthResponse.error at h
  rw [errorParams_eq, Prog.bind_eq] at h
  rcases runs_bind.1 h with ⟨_, t1, t2, rfl, h1, rfl, rfl⟩ | ⟨h1, rfl⟩
  · rcases success_runs h1 with ⟨h', _⟩ | ⟨_, _, resp, hs, hd⟩
    · cases h'
    · exact .inr (.inr (.inl ⟨rfl, t0, t1, resp, by simp, hw, hs, hd⟩))
  · rcases success_runs h1 with ⟨_, rfl, h2, h3⟩ | ⟨h', _⟩
    · refine .inl ⟨rfl, by simpa using hw, .inr (.inl ⟨h2, h3⟩)⟩
    · cases h'

theorem completeCallbackFail_runs {t0 : List Event} {m : GoStr} (hw : Work t0)
    (h : Runs (completeCallbackFail lib r rh req m) t o) :
    Completion policy lib rh info req (t0 ++ t) o := by
  unfold completeCallbackFail plog logAt at h
  replace h := runs_bind_ask.1 h
  obtain ⟨_, t1, rfl, h⟩ := h
  rw [← List.singleton_append, ← List.append_assoc]
  exact completeFail_runs (work_append.2 ⟨hw, work_cons.2 ⟨rfl, work_nil⟩⟩) h

theorem completeSend_runs {f : Flow} {t0 : List Event} {ps : Params} (hw : Work t0) (hf : req.flow = some f)
    (hp : CompleteParts policy lib info req f t0 ps)
    (h : Runs ((AuthResponse.success lib r rh req.redirectURI ps).bind fun _ => .ret true) t o) :
    Completion policy lib rh info req (t0 ++ t) o := by
  rcases runs_bind.1 h with ⟨_, t1, t2, rfl, h1, rfl, rfl⟩ | ⟨h1, rfl⟩
  · rcases success_runs h1 with ⟨h', _⟩ | ⟨_, _, resp, hs, hd⟩
    · cases h'
    · exact .inr (.inr (.inr ⟨rfl, f, t0, t1, ps, resp, hf, by simp, hw, hp, hs, hd⟩))
  · rcases success_runs h1 with ⟨_, rfl, h2, h3⟩ | ⟨h', _⟩
    · refine .inl ⟨rfl, by simpa using hw, .inr (.inl ⟨h2, h3⟩)⟩
    · cases h'

theorem completeCode_runs {f : Flow} (hf : req.flow = some f) (hty : f.type = .authorizationCode)
    (h : Runs (completeCode policy lib r rh info req) t o) : Completion policy lib rh info req t o := by
  unfold completeCode at h
  replace h := runs_bind_ask.1 h
  obtain ⟨c, t1, rfl, h⟩ := h
  cases c with
  | none => exact completeCallbackFail_runs (t0 := [_]) (work_cons.2 ⟨rfl, work_nil⟩) h
  | some code =>
    replace h := runs_bind_ask.1 h
    obtain ⟨a, t2, rfl, h⟩ := h
    cases a with
    | none => exact completeCallbackFail_runs (t0 := [_, _]) (work_cons.2 ⟨rfl, work_cons.2 ⟨rfl, work_nil⟩⟩) h
    | some authTime =>
      replace h := runs_bind_ask.1 h
      obtain ⟨s, t3, rfl, h⟩ := h
      have hw : Work [⟨.createAuthorizationCode, some code⟩, ⟨.getAuthTime, some authTime⟩,
          ⟨.createAuthSession info (req.toSession code policy.authSessionExpiresIn authTime), s⟩] := by
        simp [Work, Query.isWork]
      cases s with
      | some e => exact completeFail_runs hw h
      | none =>
        refine completeSend_runs hw hf ?_ h
        unfold CompleteParts
        rw [hty]
        exact ⟨code, authTime, rfl, rfl⟩

/-- Runs of the access-token part. -/
theorem frontToken_runs {f : Flow} {key : GoStr} {o : Outcome (Option (GoStr × Params))}
    (h : Runs (frontToken info f key) t o) :
    Work t ∧ ((o = .panic ∧ t = [⟨.createOAuthToken info false, (none, none)⟩]) ∨ o = .ok none ∨
      ∃ atk ps, o = .ok (some (atk, ps)) ∧ TokenPart info f key t atk ps) := by
  unfold frontToken at h
  cases hf : f.requireAccessToken with
  | false =>
    rw [hf] at h
    obtain ⟨rfl, rfl⟩ := h
    exact ⟨work_nil, .inr (.inr ⟨[], [], rfl, .inr ⟨hf, rfl, rfl, rfl⟩⟩)⟩
  | true =>
    rw [hf, if_pos rfl] at h
    replace h := runs_bind_ask.1 h
    obtain ⟨a, t1, rfl, h⟩ := h
    rcases a with ⟨_ | tk, _ | e⟩
    · obtain ⟨rfl, rfl⟩ := h
      exact ⟨work_cons.2 ⟨rfl, work_nil⟩, .inl ⟨rfl, rfl⟩⟩
    · obtain ⟨rfl, rfl⟩ := h
      exact ⟨work_cons.2 ⟨rfl, work_nil⟩, .inr (.inl rfl)⟩
    · obtain ⟨rfl, rfl⟩ := h
      exact ⟨work_cons.2 ⟨rfl, work_nil⟩, .inr (.inr ⟨_, _, rfl, .inl ⟨hf, tk, rfl, rfl, rfl⟩⟩)⟩
    · obtain ⟨rfl, rfl⟩ := h
      exact ⟨work_cons.2 ⟨rfl, work_nil⟩, .inr (.inl rfl)⟩

/-- Runs of the ID-token part. -/
theorem frontIdToken_runs {f : Flow} {clnt : Option Client} {authTime : Int64} {atk : GoStr}
    {code : Option GoStr} {o : Outcome (Option Params)}
    (h : Runs (frontIdToken policy lib clnt info f req authTime atk code) t o) :
    Work t ∧ ((o = .panic ∧ (clnt = none ∨ info = none)) ∨ o = .ok none ∨
      ∃ ps, o = .ok (some ps) ∧ IdPart policy lib clnt info f req authTime atk code t ps) := by
  unfold frontIdToken at h
  cases hf : f.requireIdToken with
  | false =>
    rw [hf] at h
    obtain ⟨rfl, rfl⟩ := h
    exact ⟨work_nil, .inr (.inr ⟨[], rfl, .inr ⟨hf, rfl, rfl⟩⟩)⟩
  | true =>
    rw [hf, if_pos rfl] at h
    cases clnt with
    | none =>
      obtain ⟨rfl, rfl⟩ := h
      exact ⟨work_nil, .inl ⟨rfl, .inl rfl⟩⟩
    | some c =>
      dsimp only at h
      replace h := runs_bind_ask.1 h
      obtain ⟨iss, t1, rfl, h⟩ := h
      cases info with
      | none =>
        obtain ⟨rfl, rfl⟩ := h
        exact ⟨work_cons.2 ⟨rfl, work_nil⟩, .inl ⟨rfl, .inr rfl⟩⟩
      | some i =>
        dsimp only at h
        replace h := runs_bind_ask.1 h
        obtain ⟨now, t2, rfl, h⟩ := h
        have hw : ∀ {t2 : List Event}, t2 = [] → Work (⟨.issuer, iss⟩ :: ⟨.now, now⟩ :: t2) := by
          rintro _ rfl; simp [Work, Query.isWork]
        cases code with
        | none =>
          dsimp only at h
          split at h
          · obtain ⟨rfl, rfl⟩ := h
            exact ⟨hw rfl, .inr (.inl rfl)⟩
          · rename_i idt hidt
            obtain ⟨rfl, rfl⟩ := h
            exact ⟨hw rfl, .inr (.inr ⟨_, rfl, .inl ⟨hf, c, i, iss, now, idt, rfl, rfl, rfl, rfl, hidt⟩⟩)⟩
        | some code =>
          dsimp only at h
          split at h
          · obtain ⟨rfl, rfl⟩ := h
            exact ⟨hw rfl, .inr (.inl rfl)⟩
          · rename_i idt hidt
            obtain ⟨rfl, rfl⟩ := h
            exact ⟨hw rfl, .inr (.inr ⟨_, rfl, .inl ⟨hf, c, i, iss, now, idt, rfl, rfl, rfl, rfl, hidt⟩⟩)⟩

theorem completeImplicit_runs {f : Flow} (hf : req.flow = some f) (hty : f.type = .implicit)
    (h : Runs (completeImplicit policy lib r rh info req f) t o) :
    Completion policy lib rh info req t o := by
  unfold completeImplicit at h
  replace h := runs_bind_ask.1 h
  obtain ⟨c, t1, rfl, h⟩ := h
  rcases c with ⟨clnt, _ | e⟩
  · dsimp only at h
    rw [Prog.bind_eq] at h
    have hw0 : Work [(⟨.findClientById req.clientId, (clnt, none)⟩ : Event)] := work_cons.2 ⟨rfl, work_nil⟩
    rcases runs_bind.1 h with ⟨a, t2, t3, rfl, h1, h2⟩ | ⟨h1, rfl⟩
    · obtain ⟨hw1, ⟨h', _⟩ | h' | ⟨atk, p1, h', hp1⟩⟩ := frontToken_runs h1
      · cases h'
      · cases h'
        rw [show (⟨.findClientById req.clientId, (clnt, none)⟩ : Event) :: (t2 ++ t3) =
          ([(⟨.findClientById req.clientId, (clnt, none)⟩ : Event)] ++ t2) ++ t3 by simp]
        exact completeFail_runs (work_append.2 ⟨hw0, hw1⟩) h2
      · cases h'
        dsimp only at h2
        replace h2 := runs_bind_ask.1 h2
        obtain ⟨a, t4, rfl, h2⟩ := h2
        cases a with
        | none =>
          rw [show (⟨.findClientById req.clientId, (clnt, none)⟩ : Event) :: (t2 ++ ⟨.getAuthTime, none⟩ :: t4) =
            ([(⟨.findClientById req.clientId, (clnt, none)⟩ : Event)] ++ (t2 ++ [⟨.getAuthTime, none⟩])) ++ t4 by simp]
          exact completeCallbackFail_runs (work_append.2 ⟨hw0, work_append.2 ⟨hw1, work_cons.2 ⟨rfl, work_nil⟩⟩⟩) h2
        | some authTime =>
          dsimp only at h2
          rw [Prog.bind_eq] at h2
          have hw2 : Work ([(⟨.findClientById req.clientId, (clnt, none)⟩ : Event)] ++
              (t2 ++ [⟨.getAuthTime, some authTime⟩])) :=
            work_append.2 ⟨hw0, work_append.2 ⟨hw1, work_cons.2 ⟨rfl, work_nil⟩⟩⟩
          rcases runs_bind.1 h2 with ⟨b, t5, t6, rfl, h3, h4⟩ | ⟨h3, rfl⟩
          · rw [show (⟨.findClientById req.clientId, (clnt, none)⟩ : Event) ::
                (t2 ++ ⟨.getAuthTime, some authTime⟩ :: (t5 ++ t6)) =
              ([(⟨.findClientById req.clientId, (clnt, none)⟩ : Event)] ++
                (t2 ++ [⟨.getAuthTime, some authTime⟩]) ++ t5) ++ t6 by simp]
            obtain ⟨hw3, ⟨h', _⟩ | h' | ⟨p2, h', hp2⟩⟩ := frontIdToken_runs h3
            · cases h'
            · cases h'
              exact completeFail_runs (work_append.2 ⟨hw2, hw3⟩) h4
            · cases h'
              refine completeSend_runs (work_append.2 ⟨hw2, hw3⟩) hf ?_ h4
              unfold CompleteParts
              rw [hty]
              exact ⟨clnt, t2, atk, p1, authTime, t5, p2, hp1, hp2, by simp, rfl⟩
          · obtain ⟨hw3, ⟨_, h'⟩ | h' | ⟨p2, h', _⟩⟩ := frontIdToken_runs h3
            · refine .inl ⟨rfl, ?_, ?_⟩
              · rw [show (⟨.findClientById req.clientId, (clnt, none)⟩ : Event) ::
                (t2 ++ ⟨.getAuthTime, some authTime⟩ :: t4) =
                  ([(⟨.findClientById req.clientId, (clnt, none)⟩ : Event)] ++
                (t2 ++ [⟨.getAuthTime, some authTime⟩])) ++ t4 by simp]
                exact work_append.2 ⟨hw2, hw3⟩
              · rcases h' with rfl | rfl
                · exact .inr (.inr (.inr (.inl (List.mem_cons_self ..))))
                · exact .inr (.inr (.inr (.inr rfl)))
            · cases h'
            · cases h'
    · obtain ⟨hw1, ⟨_, h'⟩ | h' | ⟨atk, p1, h', hp1⟩⟩ := frontToken_runs h1
      · subst h'
        exact .inl ⟨rfl, work_cons.2 ⟨rfl, hw1⟩, .inr (.inr (.inl (by simp)))⟩
      · cases h'
      · cases h'
  · exact completeFail_runs (t0 := [_]) (work_cons.2 ⟨rfl, work_nil⟩) h

theorem completeHybrid_runs {f : Flow} (hf : req.flow = some f) (hty : f.type = .hybrid)
    (h : Runs (completeHybrid policy lib r rh info req f) t o) :
    Completion policy lib rh info req t o := by
  unfold completeHybrid at h
  replace h := runs_bind_ask.1 h
  obtain ⟨c, t1, rfl, h⟩ := h
  cases c with
  | none => exact completeCallbackFail_runs (t0 := [_]) (work_cons.2 ⟨rfl, work_nil⟩) h
  | some code =>
  replace h := runs_bind_ask.1 h
  obtain ⟨a, t2, rfl, h⟩ := h
  cases a with
  | none => exact completeCallbackFail_runs (t0 := [_, _]) (work_cons.2 ⟨rfl, work_cons.2 ⟨rfl, work_nil⟩⟩) h
  | some authTime =>
  replace h := runs_bind_ask.1 h
  obtain ⟨s, t3, rfl, h⟩ := h
  have hw0 : ∀ s, Work [⟨.createAuthorizationCode, some code⟩, ⟨.getAuthTime, some authTime⟩,
      ⟨.createAuthSession info (req.toSession code policy.authSessionExpiresIn authTime), s⟩] := by
    intro s; simp [Work, Query.isWork]
  cases s with
  | some e => exact completeFail_runs (hw0 _) h
  | none =>
  replace h := runs_bind_ask.1 h
  obtain ⟨c, t4, rfl, h⟩ := h
  rcases c with ⟨clnt, _ | e⟩
  · dsimp only at h
    rw [Prog.bind_eq] at h
    generalize hpre : [(⟨.createAuthorizationCode, some code⟩ : Event), ⟨.getAuthTime, some authTime⟩,
      ⟨.createAuthSession info (req.toSession code policy.authSessionExpiresIn authTime), none⟩,
      ⟨.findClientById req.clientId, (clnt, none)⟩] = pre
    have hw1 : Work pre := by subst hpre; simp [Work, Query.isWork]
    have hlist : ∀ l : List Event, (⟨.createAuthorizationCode, some code⟩ : Event) :: ⟨.getAuthTime, some authTime⟩ ::
      ⟨.createAuthSession info (req.toSession code policy.authSessionExpiresIn authTime), none⟩ ::
      ⟨.findClientById req.clientId, (clnt, none)⟩ :: l = pre ++ l := by subst hpre; simp
    rw [hlist]
    rcases runs_bind.1 h with ⟨a, t5, t6, rfl, h1, h2⟩ | ⟨h1, rfl⟩
    · obtain ⟨hw2, ⟨h', _⟩ | h' | ⟨atk, p1, h', hp1⟩⟩ := frontToken_runs h1
      · cases h'
      · cases h'
        rw [← List.append_assoc]
        exact completeFail_runs (work_append.2 ⟨hw1, hw2⟩) h2
      · cases h'
        dsimp only at h2
        rw [Prog.bind_eq] at h2
        rcases runs_bind.1 h2 with ⟨b, t7, t8, rfl, h3, h4⟩ | ⟨h3, rfl⟩
        · rw [← List.append_assoc, ← List.append_assoc]
          obtain ⟨hw3, ⟨h', _⟩ | h' | ⟨p2, h', hp2⟩⟩ := frontIdToken_runs h3
          · cases h'
          · cases h'
            exact completeFail_runs (work_append.2 ⟨work_append.2 ⟨hw1, hw2⟩, hw3⟩) h4
          · cases h'
            refine completeSend_runs (work_append.2 ⟨work_append.2 ⟨hw1, hw2⟩, hw3⟩) hf ?_ h4
            unfold CompleteParts
            rw [hty]
            refine ⟨code, authTime, clnt, t5, atk, p1, t7, p2, hp1, hp2, ?_, rfl⟩
            rw [hlist]; simp
        · rw [← List.append_assoc]
          obtain ⟨hw3, ⟨_, h'⟩ | h' | ⟨p2, h', _⟩⟩ := frontIdToken_runs h3
          · refine .inl ⟨rfl, work_append.2 ⟨work_append.2 ⟨hw1, hw2⟩, hw3⟩, ?_⟩
            rcases h' with rfl | rfl
            · refine .inr (.inr (.inr (.inl ?_)))
              subst hpre; simp
            · exact .inr (.inr (.inr (.inr rfl)))
          · cases h'
          · cases h'
    · obtain ⟨hw2, ⟨_, h'⟩ | h' | ⟨atk, p1, h', hp1⟩⟩ := frontToken_runs h1
      · subst h'
        exact .inl ⟨rfl, work_append.2 ⟨hw1, hw2⟩, .inr (.inr (.inl (by simp)))⟩
      · cases h'
      · cases h'
  · refine completeFail_runs (t0 := [_, _, _, _]) ?_ h
    simp [Work, Query.isWork]

/-- Every run of completion. -/
theorem complete_runs (h : Runs (complete policy lib r rh info req) t o) :
    Completion policy lib rh info req t o := by
  unfold complete at h
  split at h
  · rename_i hf
    obtain ⟨rfl, rfl⟩ := h
    exact .inl ⟨rfl, work_nil, .inl ⟨rfl, hf⟩⟩
  · rename_i f hf
    split at h
    · rename_i hty; exact completeCode_runs hf hty h
    · rename_i hty; exact completeImplicit_runs hf hty h
    · rename_i hty; exact completeHybrid_runs hf hty h
    · rename_i hty
      obtain ⟨rfl, rfl⟩ := h
      exact .inr (.inl ⟨rfl, rfl, f, hf, hty⟩)

end

end Goidc
