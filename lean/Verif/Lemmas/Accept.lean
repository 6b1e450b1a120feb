import Verif.Lemmas.GrantAnatomy
import Verif.Lemmas.Int64
import Verif.Spec.Accept

/-! # Running forward with known answers -/

namespace Goidc

open Spec TokenEndpoint

variable {α β : Type} {t t' : List Event}

theorem Answered.mono {q x} (h : Answered t q x) (hs : ∀ e ∈ t', e ∈ t) : Answered t' q x :=
  fun x' hx => h x' (hs _ hx)

theorem xrun_pure_bind {a : α} {f : α → GrantM β} : ((pure a : GrantM α) >>= f) = f a := rfl

theorem runs_gask_bind {q : Query} {f : q.Resp → GrantM β} {o} :
    Runs ((gask q >>= f : GrantM β).run) t o ↔ ∃ x t', t = ⟨q, x⟩ :: t' ∧ Runs (f x).run t' o := by
  rw [xrun_bind]
  show Runs (.call q _) t o ↔ _
  rw [runs_call]
  rfl

theorem runs_glog_bind {lv gt ev ps} {f : Unit → GrantM β} {o} :
    Runs ((glog lv gt ev ps >>= f : GrantM β).run) t o ↔
      ∃ t', t = logged ⟨lv, b!"token_endpoint", gt, ev, ps⟩ :: t' ∧ Runs (f ()).run t' o := by
  rw [xrun_bind]
  show Runs (.call _ _) t o ↔ _
  rw [runs_call]
  constructor
  · rintro ⟨_, t', rfl, h⟩; exact ⟨t', rfl, h⟩
  · rintro ⟨t', rfl, h⟩; exact ⟨(), t', rfl, h⟩

/-- A call whose answer is known. -/
theorem runs_gask_answered {q : Query} {x : q.Resp} {f : q.Resp → GrantM β} {o}
    (h : Runs ((gask q >>= f : GrantM β).run) t o) (ha : Answered t q x) :
    ∃ t', t = ⟨q, x⟩ :: t' ∧ Runs (f x).run t' o := by
  obtain ⟨x', t', rfl, h'⟩ := runs_gask_bind.1 h
  obtain rfl := ha x' (by simp)
  exact ⟨t', rfl, h'⟩

theorem runs_ask_answered {q : Query} {x : q.Resp} {f : q.Resp → Prog β} {o}
    (h : Runs ((ask q).bind f) t o) (ha : Answered t q x) :
    ∃ t', t = ⟨q, x⟩ :: t' ∧ Runs (f x) t' o := by
  obtain ⟨x', t', rfl, h'⟩ := runs_bind_ask.1 h
  obtain rfl := ha x' (by simp)
  exact ⟨t', rfl, h'⟩

theorem needParam_eq {gt c r name} (h : Req.formValue r name ≠ []) :
    Grant.needParam gt c r name = pure (r.formValue name) := by
  unfold Grant.needParam
  rw [if_neg h]

theorem checkScope_eq {gt} {c : Client} {scp} (h : scp = [] ∨ c.canUseScope .directGrant scp = true) :
    Grant.checkScope gt c scp = pure () := by
  unfold Grant.checkScope
  rw [if_neg]
  rintro ⟨h1, h2⟩
  rcases h with h | h
  · exact h1 h
  · rw [h] at h2; cases h2

theorem runs_xpure {a : α} {o} (h : Runs (pure a : GrantM α).run t o) : t = [] ∧ o = .ok (.ok a) := h

/-! ## The assertion -/

theorem family_of_verifies {lib : Lib} {tk : JwtToken} {a k} (h : Jwt.verifies lib (tk.alg.getD []) a k = true) :
    ∃ f, tk.alg.bind Jwt.family = some f := by
  have hf : (Jwt.family (tk.alg.getD [])).isSome = true := by
    unfold Jwt.verifies at h
    split at h <;> simp only [Bool.and_eq_true, Bool.or_eq_true, decide_eq_true_eq, Bool.false_eq_true] at h
    · rw [h.1]; rfl
    · rcases h.1 with h | h <;> rw [h] <;> rfl
    · rw [h.1]; rfl
    · rw [h.1]; rfl
  cases ha : tk.alg with
  | none => rw [ha] at hf; exact absurd hf (by decide)
  | some alg =>
    rw [ha] at hf
    exact Option.isSome_iff_exists.1 (by simpa using hf)

theorem expOk_of {tk : JwtToken} {wall exp} (h : NumberClaim tk b!"exp" exp) (hw : wall.toInt ≤ exp.toInt) :
    Jwt.expOk wall (tk.claim b!"exp") = true := by
  rcases h with h | h <;> rw [h] <;> simp [Jwt.expOk, Int64.le_iff_toInt_le, hw]

theorem notBeforeOk_of {v : Option JVal} {wall : Int64}
    (h : v = none ∨ ∃ n, (v = some (.float n) ∨ v = some (.number (some n))) ∧ n.toInt ≤ wall.toInt) :
    Jwt.notBeforeOk wall v = true := by
  rcases h with rfl | ⟨n, rfl | rfl, hn⟩ <;> simp [Jwt.notBeforeOk, Int64.le_iff_toInt_le, *]

theorem numClaim_of {tk : JwtToken} {k n} (h : NumberClaim tk k n) : Assertion.numClaim (tk.claim k) = some n := by
  rcases h with h | h <;> rw [h] <;> rfl

/-- Parsing an assertion that is in order. -/
theorem runs_parse_good {σ : Type} {lib : Lib} {a : GoStr} {s0 s1 : σ} {kf} {tk : JwtToken} {k o} {t1 : List Event}
    (h : Runs (Jwt.parse lib a s0 kf) t o) (hd : lib.jwtDecode a = some tk)
    (hk : ∀ ta o', (∀ e ∈ ta, e ∈ t) → Runs (kf tk) ta o' → ta = t1 ∧ o' = .ok (.key k, s1))
    (hv : Jwt.verifies lib (tk.alg.getD []) a k = true) (ht : ∀ wall, ⟨.wallNow, wall⟩ ∈ t → InTime tk wall) :
    o = .ok (some tk, none, s1) ∧ ∃ wall, t = t1 ++ [⟨.wallNow, wall⟩] := by
  unfold Jwt.parse at h
  rw [hd] at h
  dsimp only at h
  obtain ⟨f, hf⟩ := family_of_verifies hv
  rw [hf] at h
  dsimp only at h
  rw [Prog.bind_eq, runs_bind] at h
  rcases h with ⟨⟨kr, s'⟩, ta, tb, rfl, h1, h2⟩ | ⟨h1, _⟩
  · obtain ⟨rfl, ho⟩ := hk ta _ (by simp +contextual) h1
    cases ho
    dsimp only at h2
    simp only [Prog.bind_eq] at h2
    obtain ⟨wall, t3, rfl, h3⟩ := runs_bind_ask.1 h2
    obtain ⟨⟨exp, he, hle⟩, hi, hn⟩ := ht wall (by simp)
    rw [expOk_of he hle, notBeforeOk_of hi, notBeforeOk_of hn, hv] at h3
    obtain ⟨rfl, rfl⟩ := h3
    exact ⟨rfl, wall, rfl⟩
  · obtain ⟨_, ho⟩ := hk t _ (fun _ h => h) h1
    cases ho

/-- Checking the claims of an assertion that is in order. -/
theorem runs_handle_good {a gt : GoStr} {c : Client} {tk : JwtToken} {o} {exp iss}
    (h : Runs (Assertion.handle a gt (some c) (some tk) none).run t o)
    (he : NumberClaim tk b!"exp" exp) (hne : iss ≠ []) (haud : tk.claimStr b!"aud" = some iss)
    (hiss : Answered t .issuer iss)
    (hrec : ∀ jti iat exp, Answered t (.recordAssertionClaims c.id jti iat exp) none) :
    o = .ok (.ok ()) ∧ t = [⟨.recordAssertionClaims c.id ((tk.claimStr b!"jti").getD [])
              ((Assertion.numClaim (tk.claim b!"iat")).getD (-1)) exp, none⟩, ⟨.issuer, iss⟩] := by
  unfold Assertion.handle Assertion.checkClaims at h
  dsimp only at h
  rw [numClaim_of he] at h
  dsimp only [Assertion.clientId] at h
  rw [xrun_pure_bind] at h
  obtain ⟨t', rfl, h1⟩ := runs_gask_answered h (hrec _ _ _)
  rw [show checkErr gt _ (none : Option ErrType) = (pure () : GrantM Unit) from rfl, xrun_pure_bind, haud] at h1
  dsimp only at h1
  obtain ⟨t'', rfl, h2⟩ := runs_gask_answered h1 (Answered.mono hiss (by simp +contextual))
  rw [if_neg hne, if_neg (by simp)] at h2
  obtain ⟨rfl, rfl⟩ := runs_xpure h2
  exact ⟨rfl, rfl⟩

/-! ## The client -/

theorem runs_bySecret_good {cfg r gt cid sec b o} {c : Client}
    (h : Runs (validateClientBySecret cfg r gt cid sec b) t o)
    (ha : Answered t (.findClientById cid) (some c, none)) (hm : c.matchSecret sec = true)
    (hg : c.canUseGrantType gt = true) :
    o = .ok (some c) ∧ t = [⟨.findClientById cid, (some c, none)⟩] := by
  unfold validateClientBySecret at h
  obtain ⟨t', rfl, h1⟩ := runs_ask_answered h ha
  dsimp only at h1
  rw [hm, hg] at h1
  obtain ⟨rfl, rfl⟩ := h1
  exact ⟨rfl, rfl⟩

theorem runs_byAssertion_good {cfg lib gt ca o} {c : Client} {tk : JwtToken} {sub}
    (h : Runs (validateClientByAssertion cfg lib gt ca) t o)
    (hsub : tk.claimStr b!"sub" = some sub)
    (hc : Answered t (.findClientById sub) (some c, none)) (hg : GoodAssertion lib c ca tk t) :
    o = .ok (some c) := by
  obtain ⟨⟨hd, k, hk, hv⟩, hin, ⟨exp, he⟩, ⟨iss, hne, haud, hiss⟩, hrec⟩ := hg
  rw [← verifies_iff] at hv
  unfold validateClientByAssertion at h
  rw [Prog.bind_eq, runs_bind] at h
  have hkf : ∀ (T : List Event), (∀ e ∈ T, e ∈ t) → ∀ ta o', (∀ e ∈ ta, e ∈ T) →
      Runs (assertionKeyFunc gt ca tk) ta o' →
      ta = [⟨.findClientById sub, (some c, none)⟩] ∧ o' = .ok (.key k, some c) := by
    intro T hT ta o' hta hr
    unfold assertionKeyFunc at hr
    rw [hsub] at hr
    dsimp only at hr
    obtain ⟨t', rfl, h1⟩ := runs_ask_answered hr (Answered.mono hc fun e h => hT e (hta e h))
    dsimp only at h1
    rw [hk] at h1
    obtain ⟨rfl, rfl⟩ := h1
    exact ⟨rfl, rfl⟩
  rcases h with ⟨p, t1, t2, rfl, h1, h2⟩ | ⟨h1, _⟩
  · obtain ⟨ho, wall, rfl⟩ := runs_parse_good h1 hd (hkf t1 (by simp +contextual)) hv fun w hw =>
      hin w (List.mem_append_left _ hw)
    cases ho
    rw [Prog.bind_eq, runs_bind] at h2
    rcases h2 with ⟨x, t3, t4, rfl, h3, h4⟩ | ⟨h3, _⟩
    · obtain ⟨ho, _⟩ := runs_handle_good h3 he hne haud (Answered.mono hiss (by simp +contextual))
        fun _ _ _ => Answered.mono (hrec _ _ _) (by simp +contextual)
      cases ho
      exact h4.2
    · obtain ⟨ho, _⟩ := runs_handle_good h3 he hne haud (Answered.mono hiss (by simp +contextual))
        fun _ _ _ => Answered.mono (hrec _ _ _) (by simp +contextual)
      cases ho
  · obtain ⟨ho, _⟩ := runs_parse_good h1 hd (hkf t (fun _ h => h)) hv hin
    cases ho

/-- When the client's credentials are in order, the registered handler is executed for that client. -/
theorem runs_handler_inOrder {cfg : TokenCfg} {lib r o hf} {c : Client}
    (h : Runs (handler cfg lib r) t o) (hm : r.method = b!"POST") (hgt : r.formValue b!"grant_type" ≠ [])
    (hreg : Registered cfg r hf) (hc : ClientInOrder cfg lib r c t) :
    ∃ t1 t2, t = t1 ++ t2 ∧ AuthTrace cfg lib r c t1 ∧
      Runs (executeGrantHandler cfg r c (r.formValue b!"grant_type") hf) t2 o := by
  unfold handler at h
  rw [if_neg (by simp [hm])] at h
  dsimp only at h
  rw [if_neg hgt, show lookupHandler cfg.handlers (r.formValue b!"grant_type") = some hf from hreg] at h
  dsimp only at h
  cases hc with
  | secret cid sec b hp ha hms hcg =>
    rw [findClientCredential_iff.2 hp] at h
    dsimp only at h
    rw [Prog.bind_eq, runs_bind] at h
    rcases h with ⟨x, t1, t2, rfl, h1, h2⟩ | ⟨h1, _⟩
    · obtain ⟨ho, rfl⟩ := runs_bySecret_good h1 (Answered.mono ha (by simp +contextual)) hms hcg
      cases ho
      exact ⟨_, t2, rfl, .secret cid sec b hp rfl hms hcg, h2⟩
    · obtain ⟨ho, _⟩ := runs_bySecret_good h1 ha hms hcg
      cases ho
  | assertion ca tk sub hp hacc hpa hsub ha hg =>
    rw [findClientCredential_none.2 hp, if_pos hacc, findClientAssertion_iff.2 hpa] at h
    dsimp only at h
    rw [Prog.bind_eq, runs_bind] at h
    have hmono : ∀ {t1 : List Event}, (∀ e ∈ t1, e ∈ t) → GoodAssertion lib c ca tk t1 := by
      obtain ⟨g1, g2, g3, ⟨iss, g4, g5, g6⟩, g7⟩ := hg
      exact fun hs => ⟨g1, fun w hw => g2 w (hs _ hw), g3, ⟨iss, g4, g5, Answered.mono g6 hs⟩,
        fun _ _ _ => Answered.mono (g7 _ _ _) hs⟩
    rcases h with ⟨x, t1, t2, rfl, h1, h2⟩ | ⟨h1, _⟩
    · have ho := runs_byAssertion_good h1 hsub (Answered.mono ha (by simp +contextual)) (hmono (by simp +contextual))
      cases ho
      exact ⟨t1, t2, rfl, .assertion ca hp hacc hpa h1, h2⟩
    · have ho := runs_byAssertion_good h1 hsub ha hg
      cases ho

/-- What follows a handler that must succeed. -/
theorem runs_execute_good {cfg r c gt o} {hf : GrantFunc}
    (h : Runs (executeGrantHandler cfg r c gt hf) t o)
    (hh : ∀ now t' o', ⟨.now, now⟩ ∈ t → (∀ e ∈ t', e ∈ t) → Runs (hf r c now).run t' o' → ∃ res, o' = .ok (.ok res)) :
    Granted t o := by
  unfold executeGrantHandler at h
  rw [Prog.bind_eq, runs_bind_ask] at h
  obtain ⟨now, t', rfl, h⟩ := h
  rw [Prog.bind_eq, runs_bind] at h
  rcases h with ⟨x, t1, t2, rfl, h1, h2⟩ | ⟨h1, _⟩
  · obtain ⟨res, ho⟩ := hh now t1 _ (by simp) (by simp +contextual) h1
    cases ho
    obtain ⟨t3, rfl, h3⟩ := runs_tlog_bind.1 h2
    obtain ⟨rfl, rfl⟩ := runs_respond.1 h3
    exact ⟨rfl, ⟨.now, now⟩ :: t1 ++ [logged ⟨.debug, b!"token_endpoint", gt, .accessTokenGranted, [pClient c]⟩], ⟨200, commonHeaders, res.json⟩, by simp, rfl⟩
  · obtain ⟨res, ho⟩ := hh now t' _ (by simp) (by simp +contextual) h1
    cases ho

/-- A request whose client is in order and whose grant handler must succeed is granted. -/
theorem granted_of {cfg : TokenCfg} {lib r o hf} {c : Client}
    (h : Runs (handler cfg lib r) t o) (hm : r.method = b!"POST") (hgt : r.formValue b!"grant_type" ≠ [])
    (hreg : Registered cfg r hf) (hc : ClientInOrder cfg lib r c t)
    (hh : ∀ now t' o', ⟨.now, now⟩ ∈ t → (∀ e ∈ t', e ∈ t) → Runs (hf r c now).run t' o' → ∃ res, o' = .ok (.ok res)) :
    Granted t o := by
  obtain ⟨t1, t2, rfl, _, hx⟩ := runs_handler_inOrder h hm hgt hreg hc
  obtain ⟨ho, pre, resp, rfl, hst⟩ := runs_execute_good hx fun now t' o' hn hs hr =>
    hh now t' o' (List.mem_append_right _ hn) (fun e he => List.mem_append_right _ (hs e he)) hr
  exact ⟨ho, t1 ++ pre, resp, by simp, hst⟩

end Goidc
