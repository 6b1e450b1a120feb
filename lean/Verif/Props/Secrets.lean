import Verif.Lemmas.Sim
import Verif.Spec.Secrets
import Verif.Props.TokenEndpoint

/-! # C58: secrets and the logger -/

namespace Goidc.Props

open Spec TokenEndpoint

variable {cfg : TokenCfg} {lib : Lib} {r r' : Req} {t : List Event} {o : Outcome Unit}

theorem needParam_same {gt c n} (h : r.formValue n = r'.formValue n) :
    Grant.needParam gt c r n = Grant.needParam gt c r' n := by unfold Grant.needParam; rw [h]

/-- The grants other than the password grant read the request through form parameters other than
`client_secret` and `password` only. -/
theorem others_same (hk : ∀ n, n ≠ b!"client_secret" → n ≠ b!"password" → r.formValue n = r'.formValue n) (c : Client)
    (now : Int64) : Grant.authorizationCode lib r c now = Grant.authorizationCode lib r' c now ∧
    Grant.refreshToken r c now = Grant.refreshToken r' c now ∧
    Grant.clientCredentials r c now = Grant.clientCredentials r' c now ∧
    Grant.jwt lib r c now = Grant.jwt lib r' c now := by
  have key : ∀ n ∈ [b!"redirect_uri", b!"code", b!"code_challenge_method", b!"code_challenge", b!"refresh_token",
      b!"scope", b!"assertion"], r.formValue n = r'.formValue n := by
    intro n hm
    refine hk n ?_ ?_ <;> (rintro rfl; revert hm; decide)
  simp only [List.forall_mem_cons] at key
  obtain ⟨k1, k2, k3, k4, k5, k7, k8, _⟩ := key
  refine ⟨?_, ?_, ?_, ?_⟩
  · have e : ∀ s, Grant.checkPkce lib r c s = Grant.checkPkce lib r' c s := by
      intro s
      unfold Grant.checkPkce
      simp only [needParam_same k3, needParam_same k4]
    unfold Grant.authorizationCode
    simp only [needParam_same k1, needParam_same k2, e]
  · unfold Grant.refreshToken
    simp only [needParam_same k5]
  · unfold Grant.clientCredentials
    simp only [k7]
  · unfold Grant.jwt
    simp only [needParam_same k8, k7]

/-- No built-in grant reads `client_secret`. -/
theorem grant_same {h : GrantFunc} (hb : BuiltIn lib h)
    (hk : ∀ n, n ≠ b!"client_secret" → r.formValue n = r'.formValue n) (c : Client) (now : Int64) :
    h r c now = h r' c now := by
  obtain ⟨h1, h2, h3, h4⟩ := others_same (lib := lib) (fun n hn _ => hk n hn) c now
  cases hb with
  | authorizationCode => exact h1
  | refreshToken => exact h2
  | clientCredentials => exact h3
  | jwt => exact h4
  | password =>
    unfold Grant.password
    simp only [needParam_same (hk b!"username" (by decide)), needParam_same (hk b!"password" (by decide)),
      hk b!"scope" (by decide)]

/-! ## The client secret -/

/-- Every client found in the run gives the same verdict on both secrets. -/
def SameVerdict (sec sec' : GoStr) (e : Event) : Prop :=
  ∀ cid c x, e = ⟨.findClientById cid, (some c, x)⟩ → c.matchSecret sec = c.matchSecret sec'

theorem sim_bySecret {gt cid sec sec' b} (hs : SameExceptSecret r r') :
    Sim (SameVerdict sec sec') id (validateClientBySecret cfg r gt cid sec b)
      (validateClientBySecret cfg r' gt cid sec' b) := by
  unfold validateClientBySecret
  rw [hs.header b!"REMOTE_ADDR" (by decide), hs.header b!"X-FORWARDED-FOR" (by decide)]
  intro x hx
  refine ⟨_, _, x, rfl, rfl, ?_⟩
  obtain ⟨c, e⟩ := x
  rcases e with _ | e
  · rcases c with _ | c
    · exact sim_id
    · have := hx cid c none rfl
      dsimp only [Prog.bind]
      rw [this]
      exact sim_id
  · cases e <;> exact sim_id

theorem credential_same (hs : SameExceptSecret r r') (h : findClientCredential cfg r = none)
    (h' : findClientCredential cfg r' = none) (ho : Runs (handler cfg lib r) t o)
    (hb : AllBuiltIn lib cfg) : Runs (handler cfg lib r') t o := by
  have e : handler cfg lib r = handler cfg lib r' := by
    unfold handler
    have fa : findClientAssertion r = findClientAssertion r' := by
      unfold findClientAssertion
      rw [hs.form b!"client_assertion" (by decide), hs.form b!"client_assertion_type" (by decide)]
    rw [hs.method, hs.form b!"grant_type" (by decide), h, h', fa]
    split
    · rfl
    · dsimp only
      split
      · rfl
      · split
        · rfl
        · rename_i hd hh
          have := hb _ _ hh
          have ge : ∀ c gt, executeGrantHandler cfg r c gt hd = executeGrantHandler cfg r' c gt hd := by
            intro c gt
            unfold executeGrantHandler
            simp only [grant_same this hs.form]
          simp only [ge]
  rw [← e]
  exact ho

/-- C58: if the clients found give the same verdict on two secrets, then everything that happens with
one of them - calls, answers, log lines, the response - happens with the other. -/
theorem C58_client_secret {cid sec sec' : GoStr} {b : Bool} (hb : AllBuiltIn lib cfg) (hs : SameExceptSecret r r')
    (hp : Presented cfg.acceptance r cid sec b) (hp' : Presented cfg.acceptance r' cid sec' b)
    (hv : ∀ e ∈ t, SameVerdict sec sec' e) (h : Runs (handler cfg lib r) t o) : Runs (handler cfg lib r') t o := by
  have hf := findClientCredential_iff.2 hp
  have hf' := findClientCredential_iff.2 hp'
  suffices Sim (SameVerdict sec sec') id (handler cfg lib r) (handler cfg lib r') by
    simpa using sim_runs this h hv
  unfold handler
  rw [hs.method, hs.form b!"grant_type" (by decide), hf, hf']
  split
  · exact sim_id
  · dsimp only
    split
    · exact sim_id
    · split
      · exact sim_id
      · rename_i hh
        have := hb _ _ hh
        refine sim_bind (sim_bySecret hs) fun c => ?_
        cases c with
        | none => exact sim_id
        | some c =>
          dsimp only
          unfold executeGrantHandler
          simp only [grant_same this hs.form]
          exact sim_id

/-- C58: a secret presented where it is not looked for has no influence at all. -/
theorem C58_unread_secret (hb : AllBuiltIn lib cfg) (hs : SameExceptSecret r r')
    (hp : ∀ cid sec b, ¬ Presented cfg.acceptance r cid sec b)
    (hp' : ∀ cid sec b, ¬ Presented cfg.acceptance r' cid sec b)
    (h : Runs (handler cfg lib r) t o) : Runs (handler cfg lib r') t o :=
  credential_same hs (findClientCredential_none.2 hp)
    (findClientCredential_none.2 hp') h hb

/-! ## The password -/

/-- `FindUserId` did not fail. -/
def UserFound (e : Event) : Prop := ∀ u p x y, e = ⟨.findUserId u p, (x, y)⟩ → y = none

theorem withPassword_id {p : GoStr} {q : Query} (h : ∀ u w, q ≠ .findUserId u w) : ∀ r, withPassword p ⟨q, r⟩ = ⟨q, r⟩ := by
  intro r
  cases q <;> first | rfl | exact absurd rfl (h _ _)

theorem sim_password {c : Client} {now : Int64} (hs : SameExceptPassword r r') (hne : r.formValue b!"password" ≠ [])
    (hne' : r'.formValue b!"password" ≠ []) :
    Sim UserFound (withPassword (r'.formValue b!"password")) (Grant.password r c now).run (Grant.password r' c now).run := by
  have hl : ∀ l : LogLine, ∀ r, withPassword (r'.formValue b!"password") ⟨.log l, r⟩ = ⟨.log l, r⟩ := fun l r => rfl
  unfold Grant.password
  simp only [needParam_same (hs.form b!"username" (by decide)), hs.form b!"scope" (by decide)]
  refine sim_xbind (sim_refl (allQ_needParam hl)) fun u => ?_
  have e1 : Grant.needParam Grant.typePassword c r b!"password" = pure (r.formValue b!"password") := by
    unfold Grant.needParam; exact if_neg hne
  have e2 : Grant.needParam Grant.typePassword c r' b!"password" = pure (r'.formValue b!"password") := by
    unfold Grant.needParam; exact if_neg hne'
  rw [e1, e2, pure_bind, pure_bind]
  refine sim_xbind (sim_refl (allQ_checkScope hl)) fun _ => ?_
  rw [xrun_bind, xrun_bind]
  intro x hx
  obtain ⟨uid, y⟩ := x
  have := hx _ _ uid y rfl
  subst this
  refine ⟨_, _, (uid, none), rfl, rfl, ?_⟩
  exact sim_refl (allQ_xbind (allQ_checkErr hl) fun _ => allQ_issue hl (fun _ => rfl) fun _ _ => rfl)

/-- C58 for passwords, in part: as long as `FindUserId` does not fail, replacing the password replaces
the argument of `FindUserId` and nothing else; in particular the log is the same. -/
theorem C58_password_partial (hb : AllBuiltIn lib cfg) (hs : SameExceptPassword r r')
    (hne : r.formValue b!"password" ≠ []) (hne' : r'.formValue b!"password" ≠ [])
    (hu : ∀ e ∈ t, UserFound e) (h : Runs (handler cfg lib r) t o) :
    Runs (handler cfg lib r') (t.map (withPassword (r'.formValue b!"password"))) o ∧
    logOutput (t.map (withPassword (r'.formValue b!"password"))) = logOutput t := by
  refine ⟨?_, ?_⟩
  · suffices Sim UserFound (withPassword (r'.formValue b!"password")) (handler cfg lib r) (handler cfg lib r') from
      sim_runs this h hu
    have hl : ∀ l : LogLine, ∀ x, withPassword (r'.formValue b!"password") ⟨.log l, x⟩ = ⟨.log l, x⟩ := fun l x => rfl
    have hlw : ∀ {lv gt ev ps} {resp : HttpResp}, Sim UserFound (withPassword (r'.formValue b!"password"))
        (tlog lv gt ev ps >>= fun _ => respond resp) (tlog lv gt ev ps >>= fun _ => respond resp) :=
      sim_refl (allQ_bind (allQ_tlog hl) fun _ => allQ_ask fun _ => rfl)
    have fc : findClientCredential cfg r = findClientCredential cfg r' := by
      unfold findClientCredential Req.basicAuth
      simp only [hs.header, hs.form b!"client_id" (by decide), hs.form b!"client_secret" (by decide),
        hs.postForm b!"client_id" (by decide), hs.postForm b!"client_secret" (by decide)]
    have fa : findClientAssertion r = findClientAssertion r' := by
      unfold findClientAssertion
      rw [hs.form b!"client_assertion" (by decide), hs.form b!"client_assertion_type" (by decide)]
    have hex : ∀ {c gt hd}, BuiltIn lib hd → Sim UserFound (withPassword (r'.formValue b!"password"))
        (executeGrantHandler cfg r c gt hd) (executeGrantHandler cfg r' c gt hd) := by
      intro c gt hd hbi
      unfold executeGrantHandler
      refine sim_bind (sim_refl (allQ_ask fun _ => rfl)) fun now => sim_bind ?_ fun res => ?_
      · cases hbi with
        | password => exact sim_password hs hne hne'
        | authorizationCode =>
          rw [(others_same (lib := lib) (fun n _ hn => hs.form n hn) c now).1]
          exact sim_refl (Grant.allQ_authorizationCode hl (fun _ => rfl) (fun _ _ => rfl) (fun _ _ => rfl)
            (fun _ _ => rfl) fun _ _ => rfl)
        | refreshToken =>
          rw [(others_same (lib := lib) (fun n _ hn => hs.form n hn) c now).2.1]
          exact sim_refl (Grant.allQ_refreshToken hl (fun _ _ => rfl) (fun _ _ => rfl) fun _ _ _ => rfl)
        | clientCredentials =>
          rw [(others_same (lib := lib) (fun n _ hn => hs.form n hn) c now).2.2.1]
          exact sim_refl (Grant.allQ_clientCredentials hl (fun _ _ _ _ => rfl) fun _ _ => rfl)
        | jwt =>
          rw [(others_same (lib := lib) (fun n _ hn => hs.form n hn) c now).2.2.2]
          exact sim_refl (Grant.allQ_jwt hl (fun _ => rfl) (fun _ => rfl) (fun _ _ => rfl) (fun _ _ _ _ => rfl)
            (fun _ _ _ _ => rfl) fun _ _ => rfl)
      · cases res with
        | error e => exact sim_refl (allQ_ask fun _ => rfl)
        | ok a => exact hlw
    have hfi : ∀ b, AllQ (fun q => ∀ x, withPassword (r'.formValue b!"password") ⟨q, x⟩ = ⟨q, x⟩)
        (failByInvalidClientError cfg b) := by
      intro b
      unfold failByInvalidClientError
      split <;> exact allQ_ask fun _ => rfl
    have hsec : ∀ {gt cid sec b}, Sim UserFound (withPassword (r'.formValue b!"password"))
        (validateClientBySecret cfg r gt cid sec b) (validateClientBySecret cfg r' gt cid sec b) := by
      intro gt cid sec b
      have e : validateClientBySecret cfg r gt cid sec b = validateClientBySecret cfg r' gt cid sec b := by
        unfold validateClientBySecret
        simp only [hs.header]
      rw [e]
      refine sim_refl ?_
      unfold validateClientBySecret
      have hlf : ∀ {lv gt ev ps} {p : Prog Unit},
          AllQ (fun q => ∀ x, withPassword (r'.formValue b!"password") ⟨q, x⟩ = ⟨q, x⟩) p →
          AllQ (fun q => ∀ x, withPassword (r'.formValue b!"password") ⟨q, x⟩ = ⟨q, x⟩)
            (tlog lv gt ev ps >>= fun _ => p >>= fun _ => (pure none : Prog (Option Client))) :=
        fun hp => allQ_bind (allQ_tlog hl) fun _ => allQ_bind hp fun _ => trivial
      refine allQ_bind (allQ_ask fun _ => rfl) fun ⟨c, e⟩ => ?_
      rcases e with _ | e
      · rcases c with _ | c
        · exact hlf (allQ_ask fun _ => rfl)
        · dsimp only
          split
          · exact hlf (hfi _)
          · split
            · exact hlf (allQ_ask fun _ => rfl)
            · trivial
      · cases e
        · exact hlf (allQ_ask fun _ => rfl)
        · exact hlf (allQ_ask fun _ => rfl)
        · exact hlf (hfi _)
        · exact hlf (allQ_ask fun _ => rfl)
    have hass : ∀ {gt ca}, Sim UserFound (withPassword (r'.formValue b!"password"))
        (validateClientByAssertion cfg lib gt ca) (validateClientByAssertion cfg lib gt ca) := by
      intro gt ca
      refine sim_refl ?_
      unfold validateClientByAssertion
      refine allQ_bind (allQ_parse (fun _ => rfl) fun _ => allQ_assertionKeyFunc hl fun _ _ => rfl) fun p =>
        allQ_bind (allQ_handle hl (fun _ => rfl) fun _ _ _ _ _ _ => rfl) fun res => ?_
      cases res with
      | error e => exact allQ_bind (allQ_ask fun _ => rfl) fun _ => trivial
      | ok u => dsimp only; split <;> trivial
    unfold handler
    rw [hs.method, hs.form b!"grant_type" (by decide), fc, fa]
    split
    · exact hlw
    · dsimp only
      split
      · exact hlw
      · split
        · exact hlw
        · rename_i hh
          have hbi := hb _ _ hh
          split
          · refine sim_bind hsec fun c => ?_
            cases c with
            | none => rfl
            | some c => exact hex hbi
          · split
            · refine sim_bind hass fun c => ?_
              cases c with
              | none => rfl
              | some c => exact hex hbi
            · exact hlw
  · clear h hu
    induction t with
    | nil => rfl
    | cons e t ih =>
      obtain ⟨q, x⟩ := e
      cases q <;> simp only [List.map_cons, withPassword, logOutput, ih]

/-- Another password. -/
def otherPasswordBody : Params :=
  [(b!"grant_type", b!"password"), (b!"username", b!"u"), (b!"password", b!"hunter2"), (b!"scope", b!"openid")]

theorem lookup_replace {k v v' : GoStr} {a b : Params} : ∀ n, n ≠ k →
    lookupParam (a ++ (k, v) :: b) n = lookupParam (a ++ (k, v') :: b) n := by
  intro n hn
  unfold lookupParam
  rw [List.find?_append, List.find?_append, List.find?_cons_of_neg (by simpa using Ne.symm hn),
    List.find?_cons_of_neg (by simpa using Ne.symm hn)]

theorem sample_passwords : SameExceptPassword (Sample.post Sample.passwordBody) (Sample.post otherPasswordBody) :=
  ⟨rfl, fun _ => rfl,
    fun n hn => lookup_replace (k := b!"password") (a := [(b!"grant_type", b!"password"), (b!"username", b!"u")]) n hn,
    fun n hn => lookup_replace (k := b!"password") (a := [(b!"grant_type", b!"password"), (b!"username", b!"u")]) n hn⟩

/-- The clause on passwords does not hold in general: when the backend refuses a password, the password
is passed to the logger. -/
theorem C58_false : ∃ (cfg : TokenCfg) (lib : Lib) (r : Req) (t : List Event) (o : Outcome Unit) (l : LogLine),
    AllBuiltIn lib cfg ∧ Runs (handler cfg lib r) t o ∧ l ∈ logOutput t ∧
    r.formValue b!"password" ≠ [] ∧ (b!"password", r.formValue b!"password") ∈ l.params := by
  let w : Sample.World := { user := (0, some .failed) }
  let p := handler Sample.tokenCfg Sample.lib (Sample.post otherPasswordBody)
  have hd : (logOutput (w.run p).1).any (fun l => l.params.contains (b!"password", b!"hunter2")) = true := by
    decide +kernel
  obtain ⟨l, hl, hc⟩ := List.any_eq_true.1 hd
  exact ⟨Sample.tokenCfg, Sample.lib, Sample.post otherPasswordBody, (w.run p).1, (w.run p).2.1, l, sample_allBuiltIn,
    w.runs p, hl, by decide, List.contains_iff_mem.1 hc⟩

/-- Both requests of `sample_passwords` present a password, and there is a run without failures. -/
example : (Sample.post Sample.passwordBody).formValue b!"password" ≠ [] ∧
    (Sample.post otherPasswordBody).formValue b!"password" ≠ [] ∧
    ({} : Sample.World).status (handler Sample.tokenCfg Sample.lib (Sample.post Sample.passwordBody)) = some 200 := by
  decide +kernel

/-- A wrong secret in the header. -/
def wrongSecretPost : Req :=
  { Sample.post Sample.codeBody with headers := [(b!"Authorization", b!"Basic Y2xpZW50Ond4cm9uZw==")] }
/-- Another wrong secret in the header. -/
def wrongSecretPost2 : Req :=
  { Sample.post Sample.codeBody with headers := [(b!"Authorization", b!"Basic Y2xpZW50Om90aGVy")] }

example : SameExceptSecret wrongSecretPost wrongSecretPost2 ∧
    Presented .fromHeader wrongSecretPost b!"client" b!"wxrong" true ∧
    Presented .fromHeader wrongSecretPost2 b!"client" b!"other" true ∧
    Sample.client.matchSecret b!"wxrong" = Sample.client.matchSecret b!"other" := by
  refine ⟨⟨rfl, fun k hk => ?_, fun _ _ => rfl, fun _ _ => rfl⟩, .header _ _ (by decide +kernel),
    .header _ _ (by decide +kernel), by decide⟩
  have : (b!"authorization" == toLower k) = false := by simpa using Ne.symm hk
  unfold Req.header wrongSecretPost wrongSecretPost2
  rw [List.find?_cons_of_neg (by rw [show toLower b!"Authorization" = b!"authorization" from by decide, this]; simp),
    List.find?_cons_of_neg (by rw [show toLower b!"Authorization" = b!"authorization" from by decide, this]; simp)]

end Goidc.Props
