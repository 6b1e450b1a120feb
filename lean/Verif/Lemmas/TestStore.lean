import Verif.Lemmas.Concurrent
import Verif.Lemmas.Decimal
import Verif.Spec.Calls
import Verif.Model.TestStore
import Verif.Sample.World

/-! # An executable reference store -/

namespace Goidc

/-- A sequence of calls answered by the reference store. -/
abbrev StoreRun (s : StoreState) (t : List Event) (s' : StoreState) : Prop :=
  Chain StoreState.Answers s t s'

namespace StoreState

/-- One of the answers of the reference store, when the clocks show `clk`. -/
def det (clk : Int64) (s : StoreState) : (q : Query) → Option (q.Resp × StoreState)
  | .issuer => some (b!"http://example.org/", s)
  | .findClientById cid => some (answer (s.client cid), s)
  | .findAuthSessionByCode code => some (answer (s.session code), s)
  | .findActiveAuthInfoById id => some (answer (s.info id), s)
  | .findAuthInfoByUserIdAndClientId _ _ => some ((none, some .unsupported), s)
  | .findOAuthTokenByAccessToken tok => some (answer (s.token tok), s)
  | .findOAuthTokenByRefreshToken tok => some (answer (s.tokens.find? (·.refreshToken = tok)), s)
  | .createOAuthToken none _ => none
  | .createOAuthToken (some info) _ =>
      some ((some (newToken info clk clk), none), s.setToken (newToken info clk clk))
  | .refreshAccessToken _ old =>
      match s.token old.accessToken with
      | some t => some ((some (refreshed t clk), none),
          (s.deleteToken old.accessToken).setToken (refreshed t clk))
      | none => none
  | .findUserId name pass =>
      match s.users.find? (fun u => u.username = name ∧ u.password = pass) with
      | some u => some ((u.id, none), s)
      | none => some ((-1, some .failed), s)
  | .createOrUpdateAuthInfo uid cid sc =>
      match s.infos.find? (fun i => i.userId = uid ∧ i.clientId = cid) with
      | some i => some ((some (updInfo i uid sc), none), s.setInfo (updInfo i uid sc))
      | none => some ((some (newInfo (Int64.ofNat s.infoIdPod) uid cid sc), none), s.addInfo uid cid sc)
  | .createAuthSession none _ => none
  | .createAuthSession (some info) x => some (none, s.setSession (newSession info x))
  | .disableSession x => some (none, s.deleteSession x.code)
  | .findUserIdBySubject sub =>
      match s.users.find? (fun u => u.username = sub) with
      | some u => some ((u.id, none), s)
      | none => some ((-1, some .failed), s)
  | .recordAssertionClaims _ _ _ _ => some (none, s)
  | .now => some (clk, s)
  | .wallNow => some (clk, s)
  | .mapRange m => some (⟨m, List.Perm.refl _⟩, s)
  | .showErrorScreen _ => some ((), s)
  | .log _ => some ((), s)
  | .write _ => some ((), s)
  | _ => none

theorem det_step {clk : Int64} {s : StoreState} {q : Query} {r : q.Resp} {s' : StoreState}
    (h : s.det clk q = some (r, s')) : s.Answers ⟨q, r⟩ s' := by
  unfold Answers
  cases q <;> simp only [det, step] at h ⊢
  case findOAuthTokenByRefreshToken tok =>
    simp only [Option.some.injEq, Prod.mk.injEq] at h
    obtain ⟨rfl, rfl⟩ := h
    refine ⟨rfl, ?_⟩
    cases hf : s.tokens.find? (fun x => decide (x.refreshToken = tok)) with
    | some t =>
      exact .inl ⟨t, List.mem_of_find?_eq_some hf, by simpa using List.find?_some hf, rfl⟩
    | none => exact .inr ⟨fun t ht => by simpa using List.find?_eq_none.1 hf t ht, rfl⟩
  case createOAuthToken info b =>
    cases info with
    | none => cases h
    | some info =>
      simp only [Option.some.injEq, Prod.mk.injEq] at h
      exact ⟨clk, clk, h.1.symm, h.2.symm⟩
  case refreshAccessToken info old =>
    split at h
    · rename_i t ht
      simp only [Option.some.injEq, Prod.mk.injEq] at h
      exact ⟨t, clk, ht, h.1.symm, h.2.symm⟩
    · cases h
  case findUserId name pass =>
    split at h <;> rename_i hf <;> simp only [Option.some.injEq, Prod.mk.injEq] at h <;> obtain ⟨rfl, rfl⟩ := h
    · refine ⟨rfl, .inl ⟨_, List.mem_of_find?_eq_some hf, ?_⟩⟩
      have := List.find?_some hf
      simp only [decide_eq_true_eq] at this
      exact ⟨this.1, this.2, rfl⟩
    · exact ⟨rfl, .inr ⟨fun u hu => by simpa using List.find?_eq_none.1 hf u hu, rfl⟩⟩
  case createOrUpdateAuthInfo uid cid sc =>
    split at h <;> rename_i hf <;> simp only [Option.some.injEq, Prod.mk.injEq] at h <;> obtain ⟨rfl, rfl⟩ := h
    · have := List.find?_some hf
      simp only [decide_eq_true_eq] at this
      exact .inl ⟨_, List.mem_of_find?_eq_some hf, this.1, this.2, rfl, rfl⟩
    · exact .inr ⟨fun u hu => by simpa using List.find?_eq_none.1 hf u hu, rfl, rfl⟩
  case createAuthSession info x =>
    cases info with
    | none => cases h
    | some info =>
      simp only [Option.some.injEq, Prod.mk.injEq] at h
      exact ⟨h.1.symm, h.2.symm⟩
  case findUserIdBySubject sub =>
    split at h <;> rename_i hf <;> simp only [Option.some.injEq, Prod.mk.injEq] at h <;> obtain ⟨rfl, rfl⟩ := h
    · exact ⟨rfl, .inl ⟨_, List.mem_of_find?_eq_some hf, by simpa using List.find?_some hf, rfl⟩⟩
    · exact ⟨rfl, .inr ⟨fun u hu => by simpa using List.find?_eq_none.1 hf u hu, rfl⟩⟩
  all_goals first
    | cases h; done
    | (simp only [Option.some.injEq, Prod.mk.injEq] at h
       first
         | exact ⟨h.1.symm, h.2.symm⟩
         | exact h.2.symm)

end StoreState

namespace StoreState

/-! ## Lookups -/

theorem find_set_self {α κ : Type} [DecidableEq κ] (f : α → κ) (l : List α) (x : α) :
    (x :: l.filter (fun y => f y ≠ f x)).find? (fun y => f y = f x) = some x := by
  simp

theorem find_filter_ne {α κ : Type} [DecidableEq κ] (f : α → κ) (l : List α) {k k' : κ} (h : k ≠ k') :
    (l.filter (fun y => f y ≠ k')).find? (fun y => f y = k) = l.find? (fun y => f y = k) := by
  induction l with
  | nil => rfl
  | cons a l ih =>
    by_cases ha : f a = k'
    · have hk : f a ≠ k := fun e => h (e.symm.trans ha)
      rw [List.filter_cons_of_neg (by simp [ha]), ih, List.find?_cons_of_neg (by simp [hk])]
    · rw [List.filter_cons_of_pos (by simp [ha]), List.find?_cons, List.find?_cons, ih]

theorem find_set_ne {α κ : Type} [DecidableEq κ] (f : α → κ) (l : List α) (x : α) {k : κ} (h : k ≠ f x) :
    (x :: l.filter (fun y => f y ≠ f x)).find? (fun y => f y = k) = l.find? (fun y => f y = k) := by
  have hk : f x ≠ k := fun e => h e.symm
  rw [List.find?_cons_of_neg (by simp [hk])]
  exact find_filter_ne f l h

theorem find_filter_self {α κ : Type} [DecidableEq κ] (f : α → κ) (l : List α) (k : κ) :
    (l.filter (fun y => f y ≠ k)).find? (fun y => f y = k) = none := by
  rw [List.find?_eq_none]
  intro x hx
  simpa using (List.mem_filter.1 hx).2

theorem session_delete_self (s : StoreState) (k : GoStr) : (s.deleteSession k).session k = none :=
  find_filter_self AuthSession.code s.sessions k

theorem session_delete_ne (s : StoreState) {k k' : GoStr} (h : k ≠ k') :
    (s.deleteSession k').session k = s.session k := find_filter_ne AuthSession.code s.sessions h

theorem session_set_ne (s : StoreState) {k : GoStr} {x : AuthSession} (h : k ≠ x.code) :
    (s.setSession x).session k = s.session k := find_set_ne AuthSession.code s.sessions x h

theorem session_mem {s : StoreState} {k : GoStr} {x : AuthSession} (h : s.session k = some x) :
    x ∈ s.sessions ∧ x.code = k :=
  ⟨List.mem_of_find?_eq_some h, by simpa using List.find?_some h⟩

theorem info_set_self (s : StoreState) (x : AuthInfo) : (s.setInfo x).info x.id = some x :=
  find_set_self AuthInfo.id s.infos x

theorem info_set_ne (s : StoreState) {k : Int64} {x : AuthInfo} (h : k ≠ x.id) :
    (s.setInfo x).info k = s.info k := find_set_ne AuthInfo.id s.infos x h

theorem info_mem {s : StoreState} {k : Int64} {x : AuthInfo} (h : s.info k = some x) :
    x ∈ s.infos ∧ x.id = k :=
  ⟨List.mem_of_find?_eq_some h, by simpa using List.find?_some h⟩

theorem token_set_self (s : StoreState) (x : OAuthToken) : (s.setToken x).token x.accessToken = some x :=
  find_set_self OAuthToken.accessToken s.tokens x

theorem token_set_ne (s : StoreState) {k : GoStr} {x : OAuthToken} (h : k ≠ x.accessToken) :
    (s.setToken x).token k = s.token k := find_set_ne OAuthToken.accessToken s.tokens x h

theorem token_delete_ne (s : StoreState) {k k' : GoStr} (h : k ≠ k') :
    (s.deleteToken k').token k = s.token k := find_filter_ne OAuthToken.accessToken s.tokens h

theorem token_mem {s : StoreState} {k : GoStr} {x : OAuthToken} (h : s.token k = some x) :
    x ∈ s.tokens ∧ x.accessToken = k :=
  ⟨List.mem_of_find?_eq_some h, by simpa using List.find?_some h⟩

/-! ## What each call changes -/

/-- A call that is not a change of the store. -/
def _root_.Goidc.Query.isStoreWrite : Query → Bool
  | .createOAuthToken _ _ | .refreshAccessToken _ _ | .createOrUpdateAuthInfo _ _ _
  | .createAuthSession _ _ | .disableSession _ => true
  | _ => false

theorem answers_read {s s' : StoreState} {e : Event} (h : s.Answers e s') (he : e.q.isStoreWrite = false) :
    s' = s := by
  obtain ⟨q, r⟩ := e
  unfold Answers at h
  cases q <;> simp only [Query.isStoreWrite] at he <;> simp only [step] at h
  all_goals first
    | (cases he; done)
    | exact h.2
    | exact h.1
    | exact h

theorem run_reads {s s' : StoreState} {t : List Event} (h : StoreRun s t s')
    (ht : ∀ e ∈ t, e.q.isStoreWrite = false) : s' = s := by
  induction h with
  | nil => rfl
  | cons h1 _ ih =>
    rw [ih fun e he => ht e (List.mem_cons_of_mem _ he)]
    exact answers_read h1 (ht _ List.mem_cons_self)

/-- Only the data operations matter. -/
theorem run_filter {s s' : StoreState} {t : List Event} (h : StoreRun s t s') :
    StoreRun s (t.filter fun e => e.q.isData) s' := by
  induction h with
  | nil => exact .nil _
  | @cons s s1 s2 e t h1 _ ih =>
    rw [List.filter_cons]
    split
    · exact .cons h1 ih
    · rename_i hd
      have : s1 = s := answers_read h1 (by
        obtain ⟨q, r⟩ := e
        cases q <;> simp [Query.isData, Query.isStoreWrite] at hd ⊢)
      rw [← this]
      exact ih

/-- A session that appears was created. -/
theorem session_created {s s' : StoreState} {t : List Event} (h : StoreRun s t s') {k : GoStr}
    (h0 : s.session k = none) {x} (h1 : s'.session k = some x) :
    ∃ info y rr, (⟨.createAuthSession info y, rr⟩ : Event) ∈ t ∧ y.code = k := by
  induction h with
  | nil => rw [h0] at h1; cases h1
  | @cons s s1 s2 e t h2 _ ih =>
    cases hs : s1.session k with
    | none =>
      obtain ⟨a, b, c, d, e⟩ := ih hs h1
      exact ⟨a, b, c, List.mem_cons_of_mem _ d, e⟩
    | some z =>
      obtain ⟨q, r⟩ := e
      cases hw : q.isStoreWrite with
      | false =>
        rw [answers_read h2 hw, h0] at hs
        cases hs
      | true =>
        unfold Answers at h2
        cases q <;> simp only [Query.isStoreWrite, Bool.false_eq_true] at hw <;> simp only [step] at h2
        case createAuthSession info y =>
          refine ⟨info, y, r, List.mem_cons_self, ?_⟩
          cases info with
          | none => exact h2.elim
          | some info =>
            obtain ⟨_, rfl⟩ := h2
            refine Decidable.byContradiction fun hne => ?_
            rw [session_set_ne s (k := k) (fun h => hne h.symm), h0] at hs
            cases hs
        case disableSession y =>
          obtain ⟨_, rfl⟩ := h2
          by_cases hk : k = y.code
          · subst hk; rw [session_delete_self] at hs; cases hs
          · rw [session_delete_ne s hk, h0] at hs; cases hs
        case createOAuthToken info b =>
          cases info with
          | none => exact h2.elim
          | some info =>
            obtain ⟨_, _, _, rfl⟩ := h2
            rw [show (s.setToken _).session k = s.session k from rfl, h0] at hs
            cases hs
        case refreshAccessToken info old =>
          obtain ⟨_, _, _, _, rfl⟩ := h2
          rw [show ((s.deleteToken _).setToken _).session k = s.session k from rfl, h0] at hs
          cases hs
        case createOrUpdateAuthInfo =>
          rcases h2 with ⟨_, _, _, _, _, rfl⟩ | ⟨_, _, rfl⟩
          · rw [show (s.setInfo _).session k = s.session k from rfl, h0] at hs
            cases hs
          · rw [show (s.addInfo _ _ _).session k = s.session k from rfl, h0] at hs
            cases hs

/-! ## Invariants of reachable stores -/

/-- `n` times ":R". -/
def refreshSuffix : Nat → GoStr
  | 0 => []
  | n + 1 => refreshSuffix n ++ b!":R"

/-- The access token of an authorization after `n` refreshes. -/
def tokenName (id : Int64) (n : Nat) : GoStr := b!"ACCESS_TOKEN_" ++ itoa id ++ refreshSuffix n

theorem refreshSuffix_head (n : Nat) : refreshSuffix n = [] ∨ ∃ l, refreshSuffix n = 58 :: l := by
  induction n with
  | zero => exact .inl rfl
  | succ n ih =>
    refine .inr ?_
    rcases ih with h | ⟨l, h⟩
    · exact ⟨[82], by rw [refreshSuffix, h]; rfl⟩
    · exact ⟨l ++ b!":R", by rw [refreshSuffix, h]; rfl⟩

theorem takeWhile_itoa (id : Int64) (n : Nat) :
    (itoa id ++ refreshSuffix n).takeWhile (fun c => c ≠ 58) = itoa id := by
  have h1 : ∀ c ∈ itoa id, (decide (c ≠ (58 : UInt8))) = true := by
    intro c hc
    have := itoa_mem id c hc
    simp only [ne_eq, decide_eq_true_eq]
    rintro rfl
    revert this
    decide
  rw [List.takeWhile_append_of_pos (by simpa using h1)]
  rcases refreshSuffix_head n with h | ⟨l, h⟩ <;> rw [h] <;> simp

theorem tokenName_inj {a b : Int64} {n m : Nat} (h : tokenName a n = tokenName b m) : a = b := by
  unfold tokenName at h
  rw [List.append_assoc, List.append_assoc] at h
  have h' := List.append_cancel_left h
  have := congrArg (List.takeWhile (fun c => decide (c ≠ (58 : UInt8)))) h'
  rw [takeWhile_itoa, takeWhile_itoa] at this
  exact itoa_injective this

/-- What holds of every reachable store. -/
structure Ok (s : StoreState) : Prop where
  infoIds : ∀ i ∈ s.infos, ∃ n, n < s.infoIdPod ∧ i.id = Int64.ofNat n
  infoKeys : ∀ i ∈ s.infos, s.info i.id = some i
  tokenNames : ∀ t ∈ s.tokens, ∃ n, t.accessToken = tokenName t.authId n
  tokenKeys : ∀ t ∈ s.tokens, s.token t.accessToken = some t

/-- A store without authorizations, sessions and tokens. -/
def init (users : List TestUser) (clients : List Client) : StoreState := ⟨users, clients, 0, [], [], []⟩

theorem ok_init (users clients) : (init users clients).Ok where
  infoIds := by simp [init]
  infoKeys := by simp [init]
  tokenNames := by simp [init]
  tokenKeys := by simp [init]

theorem infoKeys_set {s : StoreState} (h : s.Ok) (x : AuthInfo) :
    ∀ i ∈ (s.setInfo x).infos, (s.setInfo x).info i.id = some i := by
  intro i hi
  simp only [setInfo, List.mem_cons, List.mem_filter] at hi
  rcases hi with rfl | ⟨hi, hne⟩
  · exact info_set_self s i
  · rw [info_set_ne s (by simpa using hne)]
    exact h.infoKeys i hi

theorem tokenKeys_set {s : StoreState} (h : ∀ t ∈ s.tokens, s.token t.accessToken = some t) (x : OAuthToken) :
    ∀ t ∈ (s.setToken x).tokens, (s.setToken x).token t.accessToken = some t := by
  intro i hi
  simp only [setToken, List.mem_cons, List.mem_filter] at hi
  rcases hi with rfl | ⟨hi, hne⟩
  · exact token_set_self s i
  · rw [token_set_ne s (by simpa using hne)]
    exact h i hi

theorem ok_setToken {s : StoreState} (h : s.Ok) {x : OAuthToken} (hx : ∃ n, x.accessToken = tokenName x.authId n) :
    (s.setToken x).Ok where
  infoIds := h.infoIds
  infoKeys := h.infoKeys
  tokenNames := by
    intro t ht
    simp only [setToken, List.mem_cons, List.mem_filter] at ht
    rcases ht with rfl | ⟨ht, _⟩
    · exact hx
    · exact h.tokenNames t ht
  tokenKeys := tokenKeys_set h.tokenKeys x

theorem ok_deleteToken {s : StoreState} (h : s.Ok) (k : GoStr) : (s.deleteToken k).Ok where
  infoIds := h.infoIds
  infoKeys := h.infoKeys
  tokenNames := fun t ht => h.tokenNames t (List.mem_filter.1 ht).1
  tokenKeys := fun t ht => by
    obtain ⟨h1, h2⟩ := List.mem_filter.1 ht
    rw [token_delete_ne s (by simpa using h2)]
    exact h.tokenKeys t h1

theorem newToken_name (info : AuthInfo) (n1 n2 : Int64) :
    (newToken info n1 n2).accessToken = tokenName (newToken info n1 n2).authId 0 := by
  simp [newToken, tokenName, refreshSuffix]

theorem refreshed_name {t : OAuthToken} {n : Nat} (h : t.accessToken = tokenName t.authId n) (m : Int64) :
    (refreshed t m).accessToken = tokenName (refreshed t m).authId (n + 1) := by
  simp [refreshed, h, tokenName, refreshSuffix]

theorem ok_step {s s' : StoreState} {e : Event} (hs : s.Ok) (h : s.Answers e s') : s'.Ok := by
  cases hw : e.q.isStoreWrite with
  | false => rw [answers_read h hw]; exact hs
  | true =>
    obtain ⟨q, r⟩ := e
    unfold Answers at h
    cases q <;> simp only [Query.isStoreWrite, Bool.false_eq_true] at hw <;> simp only [step] at h
    case createAuthSession info y =>
      cases info with
      | none => exact h.elim
      | some info => obtain ⟨_, rfl⟩ := h; exact ⟨hs.1, hs.2, hs.3, hs.4⟩
    case disableSession y => obtain ⟨_, rfl⟩ := h; exact ⟨hs.1, hs.2, hs.3, hs.4⟩
    case createOAuthToken info b =>
      cases info with
      | none => exact h.elim
      | some info =>
        obtain ⟨n1, n2, _, rfl⟩ := h
        exact ok_setToken hs ⟨0, newToken_name info n1 n2⟩
    case refreshAccessToken info old =>
      obtain ⟨t, n, ht, _, rfl⟩ := h
      obtain ⟨m, hm⟩ := hs.tokenNames t (token_mem ht).1
      exact ok_setToken (ok_deleteToken hs _) ⟨m + 1, refreshed_name hm n⟩
    case createOrUpdateAuthInfo uid cid sc =>
      rcases h with ⟨i, hi, _, _, _, rfl⟩ | ⟨_, _, rfl⟩
      · refine ⟨fun j hj => ?_, infoKeys_set hs _, hs.3, hs.4⟩
        simp only [setInfo, List.mem_cons, List.mem_filter] at hj
        rcases hj with rfl | ⟨hj, _⟩
        · exact hs.infoIds i hi
        · exact hs.infoIds j hj
      · refine ⟨fun j hj => ?_, infoKeys_set hs _, hs.3, hs.4⟩
        simp only [addInfo, setInfo, List.mem_cons, List.mem_filter] at hj
        rcases hj with rfl | ⟨hj, _⟩
        · exact ⟨s.infoIdPod, Nat.lt_succ_self _, rfl⟩
        · obtain ⟨n, hn, he⟩ := hs.infoIds j hj
          exact ⟨n, Nat.lt_succ_of_lt hn, he⟩

theorem ok_run {s s' : StoreState} {t : List Event} (hs : s.Ok) (h : StoreRun s t s') : s'.Ok := by
  induction h with
  | nil => exact hs
  | cons h1 _ ih => exact ih (ok_step hs h1)

theorem pod_step {s s' : StoreState} {e : Event} (h : s.Answers e s') : s.infoIdPod ≤ s'.infoIdPod := by
  cases hw : e.q.isStoreWrite with
  | false => rw [answers_read h hw]; exact Nat.le_refl _
  | true =>
    obtain ⟨q, r⟩ := e
    unfold Answers at h
    cases q <;> simp only [Query.isStoreWrite, Bool.false_eq_true] at hw <;> simp only [step] at h
    case createAuthSession info y =>
      cases info with
      | none => exact h.elim
      | some info => obtain ⟨_, rfl⟩ := h; exact Nat.le_refl _
    case disableSession y => obtain ⟨_, rfl⟩ := h; exact Nat.le_refl _
    case createOAuthToken info b =>
      cases info with
      | none => exact h.elim
      | some info => obtain ⟨n1, n2, _, rfl⟩ := h; exact Nat.le_refl _
    case refreshAccessToken info old => obtain ⟨t, n, ht, _, rfl⟩ := h; exact Nat.le_refl _
    case createOrUpdateAuthInfo uid cid sc =>
      rcases h with ⟨i, hi, _, _, _, rfl⟩ | ⟨_, _, rfl⟩
      · exact Nat.le_refl _
      · exact Nat.le_succ _

theorem pod_run {s s' : StoreState} {t : List Event} (h : StoreRun s t s') : s.infoIdPod ≤ s'.infoIdPod := by
  induction h with
  | nil => exact Nat.le_refl _
  | cons h1 _ ih => exact Nat.le_trans (pod_step h1) ih

theorem ofNat_inj {n m : Nat} (hn : n < 2 ^ 63) (hm : m < 2 ^ 63) (h : Int64.ofNat n = Int64.ofNat m) : n = m := by
  have := congrArg Int64.toInt h
  rw [Int64.toInt_ofNat_of_lt hn, Int64.toInt_ofNat_of_lt hm] at this
  omega

/-- The token `a` belongs to an authorization of the user `u` and the client `c`, whose scope is `sc`
when `keep` holds. -/
structure Tracks (s : StoreState) (a : GoStr) (u : Int64) (c sc : GoStr) (keep : Prop) : Prop where
  holds : ∃ tk info, s.token a = some tk ∧ s.info tk.authId = some info ∧ info.userId = u ∧
    info.clientId = c ∧ (keep → info.scope = sc)

theorem tracks_step {s s' : StoreState} {e : Event} {a : GoStr} {u : Int64} {c sc : GoStr} {keep : Prop}
    (hok : s.Ok) (h : s.Answers e s') (hp : s'.infoIdPod < 2 ^ 63) (ht : s.Tracks a u c sc keep)
    (hr : ∀ info old rr, e = ⟨.refreshAccessToken info old, rr⟩ → old.accessToken ≠ a)
    (hc : keep → ∀ sc' rr, e ≠ ⟨.createOrUpdateAuthInfo u c sc', rr⟩) : s'.Tracks a u c sc keep := by
  cases hw : e.q.isStoreWrite with
  | false => rw [answers_read h hw]; exact ht
  | true =>
    obtain ⟨tk, info, h1, h2, h3, h4, h5⟩ := ht.holds
    obtain ⟨q, r⟩ := e
    unfold Answers at h
    cases q <;> simp only [Query.isStoreWrite, Bool.false_eq_true] at hw <;> simp only [step] at h
    case createAuthSession info y =>
      cases info with
      | none => exact h.elim
      | some info => obtain ⟨_, rfl⟩ := h; exact ⟨tk, _, h1, h2, h3, h4, h5⟩
    case disableSession y => obtain ⟨_, rfl⟩ := h; exact ⟨tk, _, h1, h2, h3, h4, h5⟩
    case createOAuthToken info' b =>
      cases info' with
      | none => exact h.elim
      | some info' =>
        obtain ⟨n1, n2, _, rfl⟩ := h
        by_cases ha : a = (newToken info' n1 n2).accessToken
        · obtain ⟨m, hm⟩ := hok.tokenNames tk (token_mem h1).1
          rw [(token_mem h1).2, ha, newToken_name] at hm
          have hid := tokenName_inj hm
          refine ⟨newToken info' n1 n2, info, by rw [ha]; exact token_set_self s _, ?_, h3, h4, h5⟩
          rw [hid]
          exact h2
        · exact ⟨tk, info, by rw [token_set_ne s ha]; exact h1, h2, h3, h4, h5⟩
    case refreshAccessToken info' old =>
      have hne := hr info' old r rfl
      obtain ⟨t, n, hto, _, rfl⟩ := h
      by_cases ha : a = (refreshed t n).accessToken
      · obtain ⟨m, hm⟩ := hok.tokenNames tk (token_mem h1).1
        obtain ⟨m', hm'⟩ := hok.tokenNames t (token_mem hto).1
        rw [(token_mem h1).2, ha, refreshed_name hm' n] at hm
        have hid := tokenName_inj hm
        refine ⟨refreshed t n, info, by rw [ha]; exact token_set_self _ _, ?_, h3, h4, h5⟩
        rw [hid]
        exact h2
      · refine ⟨tk, info, ?_, h2, h3, h4, h5⟩
        rw [token_set_ne _ ha, token_delete_ne s (fun h => hne h.symm)]
        exact h1
    case createOrUpdateAuthInfo uid cid sc' =>
      rcases h with ⟨i, hi, hu, hcl, _, rfl⟩ | ⟨_, _, rfl⟩
      · by_cases hid : tk.authId = (updInfo i uid sc').id
        · have hii : info = i := by
            have := hok.infoKeys i hi
            rw [show i.id = tk.authId from hid.symm, h2] at this
            exact Option.some.inj this
          refine ⟨tk, updInfo i uid sc', h1, by rw [hid]; exact info_set_self s _, ?_, ?_, fun hk => ?_⟩
          · rw [← h3, hii]; rfl
          · rw [← h4, hii]; rfl
          · refine absurd ?_ (hc hk sc' r)
            rw [← h3, ← h4, hii, hu, hcl]
        · exact ⟨tk, info, h1, by rw [info_set_ne s hid]; exact h2, h3, h4, h5⟩
      · have hid : tk.authId ≠ (newInfo (Int64.ofNat s.infoIdPod) uid cid sc').id := by
          intro he
          obtain ⟨n, hn, hin⟩ := hok.infoIds info (info_mem h2).1
          have hp' : s.infoIdPod + 1 < 2 ^ 63 := hp
          have := ofNat_inj (by omega) (by omega) (hin.symm.trans ((info_mem h2).2.trans he))
          omega
        refine ⟨tk, info, h1, ?_, h3, h4, h5⟩
        show (s.setInfo _).info _ = _
        rw [info_set_ne s hid]
        exact h2

theorem tracks_run {s s' : StoreState} {t : List Event} {a : GoStr} {u : Int64} {c sc : GoStr} {keep : Prop}
    (hok : s.Ok) (h : StoreRun s t s') (hp : s'.infoIdPod < 2 ^ 63) (ht : s.Tracks a u c sc keep)
    (hr : ∀ info old rr, (⟨.refreshAccessToken info old, rr⟩ : Event) ∈ t → old.accessToken ≠ a)
    (hc : keep → ∀ sc' rr, (⟨.createOrUpdateAuthInfo u c sc', rr⟩ : Event) ∉ t) : s'.Tracks a u c sc keep := by
  induction h with
  | nil => exact ht
  | @cons s s1 s2 e t h1 h2 ih =>
    refine ih (ok_step hok h1) hp (tracks_step hok h1 (Nat.lt_of_le_of_lt (pod_run h2) hp) ht ?_ ?_) ?_ ?_
    · rintro info old rr rfl; exact hr info old rr List.mem_cons_self
    · rintro hk sc' rr rfl; exact hc hk sc' rr List.mem_cons_self
    · intro info old rr hm; exact hr info old rr (List.mem_cons_of_mem _ hm)
    · intro hk sc' rr hm; exact hc hk sc' rr (List.mem_cons_of_mem _ hm)

end StoreState

namespace Sample

/-- A reference store with one user, one client and one unredeemed code. -/
def store : StoreState where
  users := [⟨5, b!"u", b!"p"⟩]
  clients := [client]
  infoIdPod := 12
  infos := [info]
  sessions := [session]
  tokens := []

end Sample
end Goidc
