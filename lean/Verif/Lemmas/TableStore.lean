import Verif.Lemmas.TokenUnique
import Verif.Lemmas.TestStore
import Verif.Props.TokenDecision
import Verif.Props.Store

/-! # Following the decision table of the token endpoint on the reference store -/

namespace Goidc

open Spec Props StoreState

variable {α β : Type} {F : List Event → Event → Prop} {past : List Event} {Q : List Event → α ⊕ Reply → Prop}

/-- Every row of the table `R` that starts after the calls `past`, and whose calls are answered as `F`
says, ends in `Q`. -/
def TF (F : List Event → Event → Prop) (past : List Event) (R : Table α) (Q : List Event → α ⊕ Reply → Prop) : Prop :=
  ∀ calls res, R calls res → (∀ a e b, calls = a ++ e :: b → F (past ++ a) e) → Q (past ++ calls) res

theorem tf_bind {R : Table α} {S : α → Table β} {Q : List Event → β ⊕ Reply → Prop}
    (h : TF F past R fun p res => match res with
      | .inl a => TF F p (S a) Q
      | .inr e => Q p (.inr e)) : TF F past (R >>= S) Q := by
  intro calls res hr hF
  rcases table_bind.1 hr with ⟨e, rfl, h1⟩ | ⟨c1, c2, x, rfl, h1, h2⟩
  · exact h calls _ h1 hF
  · have := h c1 _ h1 fun a e b he => hF a e (b ++ c2) (by rw [he]; simp)
    have h3 := this c2 res h2 fun a e b he => by
      have := hF (c1 ++ a) e b (by rw [he]; simp)
      rwa [← List.append_assoc] at this
    rwa [List.append_assoc] at h3

theorem tf_goOn {p : Prop} {e} {S : Unit → Table α} (hp : ¬ p) (h : TF F past (S ()) Q) :
    TF F past (endIf p e >>= S) Q := by
  refine tf_bind ?_
  rintro calls res ⟨rfl, ⟨h1, rfl⟩ | ⟨_, rfl⟩⟩ _
  · exact absurd h1 hp
  · simpa using h

theorem tf_need {r : Req} {name : GoStr} {S : Unit → Table α} (hp : r.formValue name ≠ []) (h : TF F past (S ()) Q) :
    TF F past (require r name >>= S) Q := tf_goOn hp h

theorem tf_obtain {q : Query} {value : q.Resp → Option α × Option ErrType} {e : Reply} {S : α → Table β}
    {Q : List Event → β ⊕ Reply → Prop}
    (h : ∀ x, F past ⟨q, x⟩ → ∃ a, value x = (some a, none) ∧ TF F (past ++ [⟨q, x⟩]) (S a) Q) :
    TF F past (Obtain q value e >>= S) Q := by
  refine tf_bind ?_
  intro calls res hr hF
  have hf : ∀ x, calls = [⟨q, x⟩] → F past ⟨q, x⟩ := fun x hx => by simpa using hF [] ⟨q, x⟩ [] hx
  cases hr with
  | refused h1 =>
    obtain ⟨a, h2, _⟩ := h _ (hf _ rfl)
    rw [h1] at h2; cases h2
  | failed h1 =>
    obtain ⟨a, h2, _⟩ := h _ (hf _ rfl)
    rw [h1] at h2; cases h2
  | nothing h1 =>
    obtain ⟨a, h2, _⟩ := h _ (hf _ rfl)
    rw [h1] at h2; cases h2
  | value h1 =>
    obtain ⟨a, h2, h3⟩ := h _ (hf _ rfl)
    rw [h1] at h2; cases h2
    exact h3

theorem tf_observe {q : Query} {S : q.Resp → Table β} {Q : List Event → β ⊕ Reply → Prop}
    (h : ∀ x, F past ⟨q, x⟩ → TF F (past ++ [⟨q, x⟩]) (S x) Q) : TF F past (observe q >>= S) Q := by
  refine tf_bind ?_
  rintro calls res ⟨x, rfl, rfl⟩ hF
  exact h x (by simpa using hF [] _ [] rfl)

theorem tf_find {P : α → Prop} {e : Reply} {S : α → Table β} {Q : List Event → β ⊕ Reply → Prop} {a : α} (ha : P a)
    (hu : ∀ b, P b → b = a) (h : TF F past (S a) Q) : TF F past (find P e >>= S) Q := by
  refine tf_bind ?_
  rintro calls res ⟨rfl, ⟨b, hb, rfl⟩ | ⟨hn, rfl⟩⟩ _
  · rw [hu b hb]; simpa using h
  · exact absurd ha (hn a)

theorem tf_pure {a : α} (h : Q past (.inl a)) : TF F past (pure a) Q := by
  rintro calls res ⟨rfl, rfl⟩ _
  simpa using h

theorem tf_reply {e : Reply} {Q : List Event → Empty ⊕ Reply → Prop} (h : Q past (.inr e)) : TF F past (reply e) Q := by
  rintro calls res ⟨rfl, rfl⟩ _
  simpa using h

/-- A secret was presented: which credentials the request carries. -/
theorem carries_secret {cfg : TokenCfg} {r : Req} {cid sec : GoStr} {b : Bool} (h : Presented cfg.acceptance r cid sec b) :
    CarriesCredential cfg r (.secret cid sec b) ∧ ∀ x, CarriesCredential cfg r x → x = .secret cid sec b := by
  refine ⟨h, ?_⟩
  rintro (⟨cid', sec', b'⟩ | a) hx
  · have h1 := findClientCredential_iff.2 h
    have h2 := findClientCredential_iff.2 (show Presented cfg.acceptance r cid' sec' b' from hx)
    rw [h1] at h2
    cases h2
    rfl
  · exact absurd h (hx.1 cid sec b)

/-- A client that presents the right secret is let through. -/
theorem tf_client {cfg : TokenCfg} {lib : Lib} {r : Req} {cid sec : GoStr} {b : Bool} {c : Client} {S : Client → Table β}
    {Q : List Event → β ⊕ Reply → Prop}
    (hp : Presented cfg.acceptance r cid sec b)
    (hF : ∀ x, F past ⟨.findClientById cid, x⟩ → x = (some c, none)) (hs : c.matchSecret sec = true)
    (hg : c.canUseGrantType (r.formValue b!"grant_type") = true)
    (h : TF F (past ++ [⟨.findClientById cid, (some c, none)⟩]) (S c) Q) : TF F past (clientOf cfg lib r >>= S) Q := by
  refine tf_bind ?_
  unfold clientOf
  refine tf_find (carries_secret hp).1 (carries_secret hp).2 ?_
  unfold clientBySecret
  refine tf_obtain fun x hx => ⟨c, by rw [hF x hx]; rfl, ?_⟩
  refine tf_goOn (by simp [hs]) (tf_goOn (by simp [hg]) (tf_pure ?_))
  rw [hF x hx]
  exact h

/-- The end of a run that follows the table. -/
theorem tf_run {cfg : TokenCfg} {lib : Lib} {r : Req} {kind : GrantKind} {t : List Event} {o : Outcome Unit}
    {Q : List Event → Empty ⊕ Reply → Prop}
    (hr : Registered cfg r (kind.handler lib)) (h : Runs (TokenEndpoint.handler cfg lib r) t o)
    (hF : ∀ a e b, interactions t = a ++ e :: b → F a e) (hR : TF F [] (tokenTable cfg lib r kind) Q) :
    ∃ calls e, RepliesWith cfg t o calls e ∧ Q calls (.inr e) := by
  obtain ⟨calls, e, h1, h2⟩ := C76_table (registered_kind hr) h
  refine ⟨calls, e, h2, ?_⟩
  have := hR calls _ h1 fun a x b he => by
    rcases h2 with ⟨resp, h3, _⟩ | ⟨_, h3, _⟩
    · exact hF a x (b ++ [wrote resp]) (by rw [h3, he]; simp)
    · exact hF a x b (by rw [h3, he])
  simpa using this

/-! ## Events of one request in a history of the store -/

theorem run_at {s s' : StoreState} {t u : List Event} {e : Event} (h : StoreRun s (t ++ e :: u) s') :
    ∃ m m', StoreRun s t m ∧ m.Answers e m' ∧ StoreRun m' u s' := by
  obtain ⟨m, h1, h2⟩ := chain_append.1 h
  cases h2 with
  | cons h2 h3 => exact ⟨m, _, h1, h2, h3⟩

/-- A call of the filtered list is a call of the list. -/
theorem filter_split {p : Event → Bool} {t a b : List Event} {e : Event} (h : t.filter p = a ++ e :: b) :
    ∃ t1 t2, t = t1 ++ e :: t2 ∧ t1.filter p = a ∧ t2.filter p = b := by
  induction t generalizing a with
  | nil => simp at h
  | cons x t ih =>
    by_cases hx : p x = true
    · rw [List.filter_cons_of_pos hx] at h
      cases a with
      | nil =>
        simp only [List.nil_append, List.cons.injEq] at h
        obtain ⟨rfl, rfl⟩ := h
        exact ⟨[], t, rfl, rfl, rfl⟩
      | cons y a =>
        simp only [List.cons_append, List.cons.injEq] at h
        obtain ⟨rfl, h⟩ := h
        obtain ⟨t1, t2, rfl, h1, h2⟩ := ih h
        exact ⟨x :: t1, t2, rfl, by rw [List.filter_cons_of_pos hx, h1], h2⟩
    · rw [List.filter_cons_of_neg hx] at h
      obtain ⟨t1, t2, rfl, h1, h2⟩ := ih h
      exact ⟨x :: t1, t2, rfl, by rw [List.filter_cons_of_neg hx, h1], h2⟩

namespace StoreState

/-! ## What a history keeps -/

/-- Clients never change. -/
theorem clients_step {s s' : StoreState} {e : Event} (h : s.Answers e s') : s'.clients = s.clients := by
  cases hw : e.q.isStoreWrite with
  | false => rw [answers_read h hw]
  | true =>
    obtain ⟨q, r⟩ := e
    unfold Answers at h
    cases q <;> simp only [Query.isStoreWrite, Bool.false_eq_true] at hw <;> simp only [step] at h
    case createAuthSession info y =>
      cases info with
      | none => exact h.elim
      | some info => obtain ⟨_, rfl⟩ := h; rfl
    case disableSession y => obtain ⟨_, rfl⟩ := h; rfl
    case createOAuthToken info b =>
      cases info with
      | none => exact h.elim
      | some info => obtain ⟨n1, n2, _, rfl⟩ := h; rfl
    case refreshAccessToken info old => obtain ⟨t, n, ht, _, rfl⟩ := h; rfl
    case createOrUpdateAuthInfo uid cid sc =>
      rcases h with ⟨i, hi, _, _, _, rfl⟩ | ⟨_, _, rfl⟩ <;> rfl

theorem clients_run {s s' : StoreState} {t : List Event} (h : StoreRun s t s') : s'.clients = s.clients := by
  induction h with
  | nil => rfl
  | cons h1 _ ih => rw [ih, clients_step h1]

/-- A session stays as long as its code is neither spent nor given to another session. -/
theorem session_step {s s' : StoreState} {e : Event} {k : GoStr} {x : AuthSession} (h : s.Answers e s') (hx : s.session k = some x)
    (hd : ∀ y rr, e = ⟨.disableSession y, rr⟩ → y.code ≠ k)
    (hc : ∀ i y rr, e = ⟨.createAuthSession i y, rr⟩ → y.code ≠ k) : s'.session k = some x := by
  cases hw : e.q.isStoreWrite with
  | false => rw [answers_read h hw]; exact hx
  | true =>
    obtain ⟨q, r⟩ := e
    unfold Answers at h
    cases q <;> simp only [Query.isStoreWrite, Bool.false_eq_true] at hw <;> simp only [step] at h
    case createAuthSession info y =>
      cases info with
      | none => exact h.elim
      | some info =>
        obtain ⟨_, rfl⟩ := h
        rw [session_set_ne s (fun he => hc _ y r rfl he.symm)]
        exact hx
    case disableSession y =>
      obtain ⟨_, rfl⟩ := h
      rw [session_delete_ne s (fun he => hd y r rfl he.symm)]
      exact hx
    case createOAuthToken info b =>
      cases info with
      | none => exact h.elim
      | some info => obtain ⟨n1, n2, _, rfl⟩ := h; exact hx
    case refreshAccessToken info old => obtain ⟨t, n, ht, _, rfl⟩ := h; exact hx
    case createOrUpdateAuthInfo uid cid sc =>
      rcases h with ⟨i, hi, _, _, _, rfl⟩ | ⟨_, _, rfl⟩ <;> exact hx

theorem session_run {s s' : StoreState} {t : List Event} {k : GoStr} {x : AuthSession} (h : StoreRun s t s') (hx : s.session k = some x)
    (hd : ∀ y rr, (⟨.disableSession y, rr⟩ : Event) ∈ t → y.code ≠ k)
    (hc : ∀ i y rr, (⟨.createAuthSession i y, rr⟩ : Event) ∈ t → y.code ≠ k) : s'.session k = some x := by
  induction h with
  | nil => exact hx
  | cons h1 _ ih =>
    refine ih (session_step h1 hx ?_ ?_) ?_ ?_
    · rintro y rr rfl; exact hd y rr List.mem_cons_self
    · rintro i y rr rfl; exact hc i y rr List.mem_cons_self
    · intro y rr hm; exact hd y rr (List.mem_cons_of_mem _ hm)
    · intro i y rr hm; exact hc i y rr (List.mem_cons_of_mem _ hm)

/-- The authorization `id` belongs to the user and the client, and has the scope. -/
def Authorizes (s : StoreState) (id : Int64) (u : Int64) (c sc : GoStr) : Prop :=
  ∃ info, s.info id = some info ∧ info.userId = u ∧ info.clientId = c ∧ info.scope = sc ∧ info.subject = itoa u

theorem authorizes_step {s s' : StoreState} {e : Event} {id u : Int64} {c sc : GoStr} (hok : s.Ok) (h : s.Answers e s')
    (hp : s'.infoIdPod < 2 ^ 63) (ht : s.Authorizes id u c sc)
    (hc : ∀ sc' rr, e = ⟨.createOrUpdateAuthInfo u c sc', rr⟩ → sc' = sc) : s'.Authorizes id u c sc := by
  cases hw : e.q.isStoreWrite with
  | false => rw [answers_read h hw]; exact ht
  | true =>
    obtain ⟨info, h2, h3, h4, h5, h6⟩ := ht
    obtain ⟨q, r⟩ := e
    unfold Answers at h
    cases q <;> simp only [Query.isStoreWrite, Bool.false_eq_true] at hw <;> simp only [step] at h
    case createAuthSession info y =>
      cases info with
      | none => exact h.elim
      | some info => obtain ⟨_, rfl⟩ := h; exact ⟨_, h2, h3, h4, h5, h6⟩
    case disableSession y => obtain ⟨_, rfl⟩ := h; exact ⟨_, h2, h3, h4, h5, h6⟩
    case createOAuthToken info' b =>
      cases info' with
      | none => exact h.elim
      | some info' => obtain ⟨n1, n2, _, rfl⟩ := h; exact ⟨_, h2, h3, h4, h5, h6⟩
    case refreshAccessToken info' old => obtain ⟨t, n, hto, _, rfl⟩ := h; exact ⟨_, h2, h3, h4, h5, h6⟩
    case createOrUpdateAuthInfo uid cid sc' =>
      rcases h with ⟨i, hi, hu, hcl, _, rfl⟩ | ⟨_, _, rfl⟩
      · by_cases hid : id = (updInfo i uid sc').id
        · have hii : info = i := by
            have := hok.infoKeys i hi
            rw [show i.id = id from hid.symm, h2] at this
            exact Option.some.inj this
          subst hii
          have hu' : uid = u := hu.symm.trans h3
          have hc' : cid = c := hcl.symm.trans h4
          subst hu' hc'
          exact ⟨updInfo info uid sc', by rw [hid]; exact info_set_self s _, h3, h4, hc sc' r rfl, rfl⟩
        · exact ⟨info, by rw [info_set_ne s hid]; exact h2, h3, h4, h5, h6⟩
      · have hid : id ≠ (newInfo (Int64.ofNat s.infoIdPod) uid cid sc').id := by
          intro he
          obtain ⟨n, hn, hin⟩ := hok.infoIds info (info_mem h2).1
          have hp' : s.infoIdPod + 1 < 2 ^ 63 := hp
          have := ofNat_inj (by omega) (by omega) (hin.symm.trans ((info_mem h2).2.trans he))
          omega
        refine ⟨info, ?_, h3, h4, h5, h6⟩
        show (s.setInfo _).info _ = _
        rw [info_set_ne s hid]
        exact h2

theorem authorizes_run {s s' : StoreState} {t : List Event} {id u : Int64} {c sc : GoStr} (hok : s.Ok) (h : StoreRun s t s')
    (hp : s'.infoIdPod < 2 ^ 63) (ht : s.Authorizes id u c sc)
    (hc : ∀ sc' rr, (⟨.createOrUpdateAuthInfo u c sc', rr⟩ : Event) ∈ t → sc' = sc) : s'.Authorizes id u c sc := by
  induction h with
  | nil => exact ht
  | cons h1 h2 ih =>
    refine ih (ok_step hok h1) hp (authorizes_step hok h1 (Nat.lt_of_le_of_lt (pod_run h2) hp) ht ?_) ?_
    · rintro sc' rr rfl; exact hc sc' rr List.mem_cons_self
    · intro sc' rr hm; exact hc sc' rr (List.mem_cons_of_mem _ hm)

/-- An authorization that was just created or updated. -/
theorem authorizes_new {s s' : StoreState} {u : Int64} {c sc : GoStr} {x}
    (h : s.Answers ⟨.createOrUpdateAuthInfo u c sc, x⟩ s') :
    ∃ info, x = (some info, none) ∧ s'.Authorizes info.id u c sc := by
  rcases h with ⟨i, hi, hu, hcl, hx, rfl⟩ | ⟨_, hx, rfl⟩
  · exact ⟨_, hx, _, info_set_self s _, hu, hcl, rfl, rfl⟩
  · exact ⟨_, hx, _, info_set_self s (newInfo _ _ _ _), rfl, rfl, rfl, rfl⟩

/-! ## Stored authorizations and tokens -/

/-- More that holds of every reachable store. -/
structure Ok2 (s : StoreState) : Prop where
  active : ∀ i ∈ s.infos, i.isActive = true
  subject : ∀ i ∈ s.infos, i.subject = itoa i.userId
  refresh : ∀ t ∈ s.tokens, t.refreshToken = [] ∨ t.refreshToken = b!"REFRESH_TOKEN_" ++ itoa t.authId

theorem ok2_init (users clients) : (init users clients).Ok2 := ⟨by simp [init], by simp [init], by simp [init]⟩

theorem ok2_step {s s' : StoreState} {e : Event} (hs : s.Ok2) (h : s.Answers e s') : s'.Ok2 := by
  cases hw : e.q.isStoreWrite with
  | false => rw [answers_read h hw]; exact hs
  | true =>
    obtain ⟨q, r⟩ := e
    unfold Answers at h
    cases q <;> simp only [Query.isStoreWrite, Bool.false_eq_true] at hw <;> simp only [step] at h
    case createAuthSession info y =>
      cases info with
      | none => exact h.elim
      | some info => obtain ⟨_, rfl⟩ := h; exact ⟨hs.1, hs.2, hs.3⟩
    case disableSession y => obtain ⟨_, rfl⟩ := h; exact ⟨hs.1, hs.2, hs.3⟩
    case createOAuthToken info b =>
      cases info with
      | none => exact h.elim
      | some info =>
        obtain ⟨n1, n2, _, rfl⟩ := h
        refine ⟨hs.1, hs.2, fun t ht => ?_⟩
        simp only [setToken, List.mem_cons, List.mem_filter] at ht
        rcases ht with rfl | ⟨ht, _⟩
        · simp only [newToken]
          split <;> simp
        · exact hs.3 t ht
    case refreshAccessToken info old =>
      obtain ⟨t, n, ht, _, rfl⟩ := h
      refine ⟨hs.1, hs.2, fun t' ht' => ?_⟩
      simp only [setToken, deleteToken, List.mem_cons, List.mem_filter] at ht'
      rcases ht' with rfl | ⟨⟨ht', _⟩, _⟩
      · exact hs.3 t (token_mem ht).1
      · exact hs.3 t' ht'
    case createOrUpdateAuthInfo uid cid sc =>
      have key : ∀ (P : AuthInfo → Prop) x, (∀ j ∈ s.infos, P j) → P x → ∀ j ∈ (s.setInfo x).infos, P j := by
        intro P x h1 h2 j hj
        simp only [setInfo, List.mem_cons, List.mem_filter] at hj
        rcases hj with rfl | ⟨hj, _⟩
        · exact h2
        · exact h1 j hj
      rcases h with ⟨i, hi, hu, _, _, rfl⟩ | ⟨_, _, rfl⟩
      · exact ⟨key (fun i => i.isActive = true) _ hs.1 (hs.1 i hi),
          key (fun i => i.subject = itoa i.userId) _ hs.2 (by show itoa uid = itoa i.userId; rw [hu]), hs.3⟩
      · exact ⟨key (fun i => i.isActive = true) _ hs.1 rfl, key (fun i => i.subject = itoa i.userId) _ hs.2 rfl, hs.3⟩

theorem ok2_run {s s' : StoreState} {t : List Event} (hs : s.Ok2) (h : StoreRun s t s') : s'.Ok2 := by
  induction h with
  | nil => exact hs
  | cons h1 _ ih => exact ih (ok2_step hs h1)

/-- The token `a` of the authorization `id` is stored with a refresh token. -/
def Refreshable (s : StoreState) (a : GoStr) (id : Int64) : Prop :=
  ∃ t, s.token a = some t ∧ t.authId = id ∧ t.refreshToken = b!"REFRESH_TOKEN_" ++ itoa id

theorem refreshable_step {s s' : StoreState} {e : Event} {a : GoStr} {id : Int64} (hok : s.Ok) (h : s.Answers e s')
    (hr : s.Refreshable a id)
    (hc : ∀ i b rr, e = ⟨.createOAuthToken (some i) b, rr⟩ → i.id = id → HasWord i.scope b!"offline_access")
    (hf : ∀ i old tk, e = ⟨.refreshAccessToken i old, (some tk, none)⟩ → tk.authId ≠ id) : s'.Refreshable a id := by
  cases hw : e.q.isStoreWrite with
  | false => rw [answers_read h hw]; exact hr
  | true =>
    obtain ⟨t, h1, h2, h3⟩ := hr
    obtain ⟨q, r⟩ := e
    unfold Answers at h
    cases q <;> simp only [Query.isStoreWrite, Bool.false_eq_true] at hw <;> simp only [step] at h
    case createAuthSession info y =>
      cases info with
      | none => exact h.elim
      | some info => obtain ⟨_, rfl⟩ := h; exact ⟨t, h1, h2, h3⟩
    case disableSession y => obtain ⟨_, rfl⟩ := h; exact ⟨t, h1, h2, h3⟩
    case createOAuthToken info b =>
      cases info with
      | none => exact h.elim
      | some info =>
        obtain ⟨n1, n2, _, rfl⟩ := h
        by_cases ha : a = (newToken info n1 n2).accessToken
        · obtain ⟨m, hm⟩ := hok.tokenNames t (token_mem h1).1
          rw [(token_mem h1).2, ha, newToken_name] at hm
          have hid : info.id = id := (tokenName_inj hm).trans h2
          refine ⟨newToken info n1 n2, by rw [ha]; exact token_set_self s _, hid, ?_⟩
          have := scope_hasWord.2 (hc info b r rfl hid)
          show (if Scope.includes info.scope b!"offline_access" = true then b!"REFRESH_TOKEN_" ++ itoa info.id else []) = _
          rw [if_pos this, hid]
        · exact ⟨t, by rw [token_set_ne s ha]; exact h1, h2, h3⟩
    case refreshAccessToken info old =>
      obtain ⟨t', n, ht', rfl, rfl⟩ := h
      have hne : t'.authId ≠ id := hf info old (refreshed t' n) rfl
      have hold : old.accessToken ≠ a := by
        rintro rfl
        rw [h1] at ht'
        cases ht'
        exact hne h2
      obtain ⟨m, hm⟩ := hok.tokenNames t (token_mem h1).1
      obtain ⟨m', hm'⟩ := hok.tokenNames t' (token_mem ht').1
      have hnew : a ≠ (refreshed t' n).accessToken := by
        intro ha
        rw [(token_mem h1).2, ha, refreshed_name hm' n] at hm
        exact hne ((tokenName_inj hm).trans h2)
      exact ⟨t, by rw [token_set_ne _ hnew, token_delete_ne s (fun h => hold h.symm)]; exact h1, h2, h3⟩
    case createOrUpdateAuthInfo uid cid sc =>
      rcases h with ⟨i, hi, _, _, _, rfl⟩ | ⟨_, _, rfl⟩ <;> exact ⟨t, h1, h2, h3⟩

theorem refreshable_run {s s' : StoreState} {u : List Event} {a : GoStr} {id : Int64} (hok : s.Ok) (h : StoreRun s u s')
    (hr : s.Refreshable a id)
    (hc : ∀ i b rr, (⟨.createOAuthToken (some i) b, rr⟩ : Event) ∈ u → i.id = id → HasWord i.scope b!"offline_access")
    (hf : ∀ i old tk, (⟨.refreshAccessToken i old, (some tk, none)⟩ : Event) ∈ u → tk.authId ≠ id) : s'.Refreshable a id := by
  induction h with
  | nil => exact hr
  | cons h1 _ ih =>
    refine ih (ok_step hok h1) (refreshable_step hok h1 hr ?_ ?_) ?_ ?_
    · rintro i b rr rfl; exact hc i b rr List.mem_cons_self
    · rintro i old tk rfl; exact hf i old tk List.mem_cons_self
    · intro i b rr hm; exact hc i b rr (List.mem_cons_of_mem _ hm)
    · intro i old tk hm; exact hf i old tk (List.mem_cons_of_mem _ hm)

/-- The token `a` belongs to the authorization `id`. -/
def TokenOf (s : StoreState) (a : GoStr) (id : Int64) : Prop := ∃ t, s.token a = some t ∧ t.authId = id

theorem tokenOf_step {s s' : StoreState} {e : Event} {a : GoStr} {id : Int64} (hok : s.Ok) (h : s.Answers e s')
    (hr : s.TokenOf a id) (hf : ∀ i old rr, e = ⟨.refreshAccessToken i old, rr⟩ → old.accessToken ≠ a) : s'.TokenOf a id := by
  cases hw : e.q.isStoreWrite with
  | false => rw [answers_read h hw]; exact hr
  | true =>
    obtain ⟨t, h1, h2⟩ := hr
    obtain ⟨q, r⟩ := e
    unfold Answers at h
    cases q <;> simp only [Query.isStoreWrite, Bool.false_eq_true] at hw <;> simp only [step] at h
    case createAuthSession info y =>
      cases info with
      | none => exact h.elim
      | some info => obtain ⟨_, rfl⟩ := h; exact ⟨t, h1, h2⟩
    case disableSession y => obtain ⟨_, rfl⟩ := h; exact ⟨t, h1, h2⟩
    case createOAuthToken info b =>
      cases info with
      | none => exact h.elim
      | some info =>
        obtain ⟨n1, n2, _, rfl⟩ := h
        by_cases ha : a = (newToken info n1 n2).accessToken
        · obtain ⟨m, hm⟩ := hok.tokenNames t (token_mem h1).1
          rw [(token_mem h1).2, ha, newToken_name] at hm
          exact ⟨newToken info n1 n2, by rw [ha]; exact token_set_self s _, (tokenName_inj hm).trans h2⟩
        · exact ⟨t, by rw [token_set_ne s ha]; exact h1, h2⟩
    case refreshAccessToken info old =>
      obtain ⟨t', n, ht', rfl, rfl⟩ := h
      have hold : old.accessToken ≠ a := hf info old _ rfl
      by_cases ha : a = (refreshed t' n).accessToken
      · obtain ⟨m, hm⟩ := hok.tokenNames t (token_mem h1).1
        obtain ⟨m', hm'⟩ := hok.tokenNames t' (token_mem ht').1
        rw [(token_mem h1).2, ha, refreshed_name hm' n] at hm
        exact ⟨refreshed t' n, by rw [ha]; exact token_set_self _ _, (tokenName_inj hm).trans h2⟩
      · exact ⟨t, by rw [token_set_ne _ ha, token_delete_ne s (fun h => hold h.symm)]; exact h1, h2⟩
    case createOrUpdateAuthInfo uid cid sc =>
      rcases h with ⟨i, hi, _, _, _, rfl⟩ | ⟨_, _, rfl⟩ <;> exact ⟨t, h1, h2⟩

theorem tokenOf_run {s s' : StoreState} {u : List Event} {a : GoStr} {id : Int64} (hok : s.Ok) (h : StoreRun s u s')
    (hr : s.TokenOf a id) (hf : ∀ i old rr, (⟨.refreshAccessToken i old, rr⟩ : Event) ∈ u → old.accessToken ≠ a) : s'.TokenOf a id := by
  induction h with
  | nil => exact hr
  | cons h1 _ ih =>
    refine ih (ok_step hok h1) (tokenOf_step hok h1 hr ?_) ?_
    · rintro i old rr rfl; exact hf i old rr List.mem_cons_self
    · intro i old rr hm; exact hf i old rr (List.mem_cons_of_mem _ hm)

end StoreState
end Goidc
