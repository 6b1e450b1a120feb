import Verif.Spec.Origin
import Verif.Lemmas.TestStore

/-! # The reference store keeps its records -/

namespace Goidc

open Spec StoreState

/-- The history `a` explains everything in the store `s`. -/
structure Explains (a : List (Nat × Event)) (s : StoreState) : Prop where
  ok : s.Ok
  infos : ∀ i ∈ s.infos, ∃ k, (k, ⟨.createOrUpdateAuthInfo i.userId i.clientId i.scope, (some i, none)⟩) ∈ a
  shown : ∀ k e i, (k, e) ∈ a → Shows i e → ∃ j, s.info i.id = some j ∧ j.userId = i.userId ∧ j.clientId = i.clientId
  sessions : ∀ x ∈ s.sessions, ∃ k i y, (k, ⟨.createAuthSession (some i) y, none⟩) ∈ a ∧ x = newSession i y
  tokens : ∀ t ∈ s.tokens, ∃ k e, (k, e) ∈ a ∧ Issues t e
  names : ∀ k rt old, (k, ⟨.findOAuthTokenByRefreshToken rt, (some old, none)⟩) ∈ a →
    ∃ n, old.accessToken = tokenName old.authId n

theorem explains_init (users clients) : Explains [] (StoreState.init users clients) where
  ok := ok_init users clients
  infos := by simp [StoreState.init]
  shown := by simp
  sessions := by simp [StoreState.init]
  tokens := by simp [StoreState.init]
  names := by simp

theorem answer_val {α : Type} {o : Option α} {x : α} (h : (some x, none) = StoreState.answer o) : o = some x := by
  cases o with
  | none => cases h
  | some y => cases h; rfl

theorem explains_step {a : List (Nat × Event)} {s s' : StoreState} {k : Nat} {e : Event} (h : Explains a s)
    (hs : s.Answers e s') (hp : s'.infoIdPod < 2 ^ 63) : Explains (a ++ [(k, e)]) s' := by
  have hok' := ok_step h.ok hs
  have up : ∀ {x : Nat × Event}, x ∈ a → x ∈ a ++ [(k, e)] := fun hm => List.mem_append_left _ hm
  have last : (k, e) ∈ a ++ [(k, e)] := by simp
  -- the event's own lookup of a token by its refresh token
  have hnames : ∀ k' rt old, (k', ⟨.findOAuthTokenByRefreshToken rt, (some old, none)⟩) ∈ a ++ [(k, e)] →
      ∃ n, old.accessToken = tokenName old.authId n := by
    intro k' rt old hm
    rcases List.mem_append.1 hm with hm | hm
    · exact h.names k' rt old hm
    · obtain ⟨rfl, rfl⟩ : k' = k ∧ _ = e := by simpa using hm
      unfold Answers at hs
      simp only [step] at hs
      obtain ⟨_, ⟨t, ht, _, hr⟩ | ⟨_, hr⟩⟩ := hs
      · cases hr; exact h.ok.tokenNames _ ht
      · cases hr
  -- what is shown stays, and what the event shows is there
  have hshown : (∀ i j, s.info i = some j → ∃ j', s'.info i = some j' ∧ j'.userId = j.userId ∧ j'.clientId = j.clientId) →
      (∀ i, Shows i e → ∃ j, s'.info i.id = some j ∧ j.userId = i.userId ∧ j.clientId = i.clientId) →
      ∀ k' e' i, (k', e') ∈ a ++ [(k, e)] → Shows i e' →
        ∃ j, s'.info i.id = some j ∧ j.userId = i.userId ∧ j.clientId = i.clientId := by
    intro h1 h2 k' e' i hm hsh
    rcases List.mem_append.1 hm with hm | hm
    · obtain ⟨j, hj, hu, hc⟩ := h.shown k' e' i hm hsh
      obtain ⟨j', hj', hu', hc'⟩ := h1 _ _ hj
      exact ⟨j', hj', hu'.trans hu, hc'.trans hc⟩
    · obtain ⟨rfl, rfl⟩ : k' = k ∧ e' = e := by simpa using hm
      exact h2 i hsh
  obtain ⟨q, r⟩ := e
  cases hw : q.isStoreWrite with
  | false =>
    have := answers_read hs hw
    subst this
    refine ⟨hok', fun i hi => ?_, hshown (fun i j hj => ⟨j, hj, rfl, rfl⟩) ?_, fun x hx => ?_, fun t ht => ?_, hnames⟩
    · obtain ⟨k', hm⟩ := h.infos i hi; exact ⟨k', up hm⟩
    · intro i hsh
      cases hsh with
      | recorded => cases hw
      | found uid cid => unfold Answers at hs; simp only [step] at hs; cases hs.1
      | active id =>
        unfold Answers at hs; simp only [step] at hs
        have := answer_val hs.1
        refine ⟨i, ?_, rfl, rfl⟩
        rw [(info_mem this).2]; exact this
    · obtain ⟨k', i, y, hm, he⟩ := h.sessions x hx; exact ⟨k', i, y, up hm, he⟩
    · obtain ⟨k', e', hm, he⟩ := h.tokens t ht; exact ⟨k', e', up hm, he⟩
  | true =>
    have hi0 : ∀ i ∈ s.infos, ∃ k', (k', ⟨.createOrUpdateAuthInfo i.userId i.clientId i.scope, (some i, none)⟩) ∈ a ++ [(k, ⟨q, r⟩)] :=
      fun i hi => by obtain ⟨k', hm⟩ := h.infos i hi; exact ⟨k', up hm⟩
    have hx0 : ∀ x ∈ s.sessions, ∃ k' i y, (k', ⟨.createAuthSession (some i) y, none⟩) ∈ a ++ [(k, ⟨q, r⟩)] ∧ x = newSession i y :=
      fun x hx => by obtain ⟨k', i, y, hm, he⟩ := h.sessions x hx; exact ⟨k', i, y, up hm, he⟩
    have ht0 : ∀ t ∈ s.tokens, ∃ k' e', (k', e') ∈ a ++ [(k, ⟨q, r⟩)] ∧ Issues t e' :=
      fun t ht => by obtain ⟨k', e', hm, he⟩ := h.tokens t ht; exact ⟨k', e', up hm, he⟩
    unfold Answers at hs
    cases q <;> simp only [Query.isStoreWrite, Bool.false_eq_true] at hw <;> simp only [step] at hs
    case createAuthSession info y =>
      cases info with
      | none => exact hs.elim
      | some info =>
        obtain ⟨rfl, rfl⟩ := hs
        refine ⟨hok', hi0, hshown (fun i j hj => ⟨j, hj, rfl, rfl⟩) (fun i hsh => by cases hsh), fun x hx => ?_, ht0, hnames⟩
        simp only [setSession, List.mem_cons, List.mem_filter] at hx
        rcases hx with rfl | ⟨hx, _⟩
        · exact ⟨k, info, y, last, rfl⟩
        · exact hx0 x hx
    case disableSession y =>
      obtain ⟨rfl, rfl⟩ := hs
      refine ⟨hok', hi0, hshown (fun i j hj => ⟨j, hj, rfl, rfl⟩) (fun i hsh => by cases hsh), fun x hx => ?_, ht0, hnames⟩
      exact hx0 x (List.mem_filter.1 hx).1
    case createOAuthToken info b =>
      cases info with
      | none => exact hs.elim
      | some info =>
        obtain ⟨n1, n2, rfl, rfl⟩ := hs
        refine ⟨hok', hi0, hshown (fun i j hj => ⟨j, hj, rfl, rfl⟩) (fun i hsh => by cases hsh), hx0, fun t ht => ?_, hnames⟩
        simp only [setToken, List.mem_cons, List.mem_filter] at ht
        rcases ht with rfl | ⟨ht, _⟩
        · exact ⟨k, _, last, .created _ _⟩
        · exact ht0 t ht
    case refreshAccessToken info old =>
      obtain ⟨t', n, _, rfl, rfl⟩ := hs
      refine ⟨hok', hi0, hshown (fun i j hj => ⟨j, hj, rfl, rfl⟩) (fun i hsh => by cases hsh), hx0, fun t ht => ?_, hnames⟩
      simp only [setToken, deleteToken, List.mem_cons, List.mem_filter] at ht
      rcases ht with rfl | ⟨⟨ht, _⟩, _⟩
      · exact ⟨k, _, last, .refreshed _ _⟩
      · exact ht0 t ht
    case createOrUpdateAuthInfo uid cid sc =>
      rcases hs with ⟨i, hi, rfl, rfl, rfl, rfl⟩ | ⟨hno, rfl, rfl⟩
      · refine ⟨hok', fun x hx => ?_, hshown (fun id j hj => ?_) (fun x hsh => ?_), hx0, ht0, hnames⟩
        · simp only [setInfo, List.mem_cons, List.mem_filter] at hx
          rcases hx with rfl | ⟨hx, _⟩
          · exact ⟨k, last⟩
          · exact hi0 x hx
        · by_cases hid : id = (updInfo i i.userId sc).id
          · subst hid
            have := h.ok.infoKeys i hi
            rw [show (updInfo i i.userId sc).id = i.id from rfl, this] at hj
            cases hj
            exact ⟨_, info_set_self s _, rfl, rfl⟩
          · exact ⟨j, by rw [info_set_ne s hid]; exact hj, rfl, rfl⟩
        · cases hsh with
          | recorded => exact ⟨_, info_set_self s _, rfl, rfl⟩
      · refine ⟨hok', fun x hx => ?_, hshown (fun id j hj => ?_) (fun x hsh => ?_), hx0, ht0, hnames⟩
        · simp only [addInfo, setInfo, List.mem_cons, List.mem_filter] at hx
          rcases hx with rfl | ⟨hx, _⟩
          · exact ⟨k, last⟩
          · exact hi0 x hx
        · have hid : id ≠ (newInfo (Int64.ofNat s.infoIdPod) uid cid sc).id := by
            intro he
            obtain ⟨n, hn, hin⟩ := h.ok.infoIds j (info_mem hj).1
            have hp' : s.infoIdPod + 1 < 2 ^ 63 := hp
            have := ofNat_inj (by omega) (by omega) (hin.symm.trans ((info_mem hj).2.trans he))
            omega
          refine ⟨j, ?_, rfl, rfl⟩
          show (s.setInfo _).info _ = _
          rw [info_set_ne s hid]
          exact hj
        · cases hsh with
          | recorded => exact ⟨_, info_set_self s _, rfl, rfl⟩

theorem explains_run {a g : List (Nat × Event)} {s s' : StoreState} (h : Explains a s)
    (hr : StoreRun s (g.map (·.2)) s') (hp : s'.infoIdPod < 2 ^ 63) : Explains (a ++ g) s' := by
  induction g generalizing a s with
  | nil => cases hr; simpa using h
  | cons x g ih =>
    obtain ⟨k, e⟩ := x
    cases hr with
    | cons h1 h2 =>
      have := ih (explains_step (k := k) h h1 (Nat.lt_of_le_of_lt (pod_run h2) hp)) h2
      simpa using this

/-- Runs of the reference store from the start keep their records. -/
theorem store_keeps {users clients} {g : List (Nat × Event)} {s : StoreState}
    (hr : StoreRun (StoreState.init users clients) (g.map (·.2)) s) (hp : s.infoIdPod < 2 ^ 63) : KeepsRecords g := by
  have at_ : ∀ {a b k e}, g = a ++ (k, e) :: b → ∃ s1 s2, Explains a s1 ∧ s1.Answers e s2 := by
    rintro a b k e rfl
    rw [List.map_append, List.map_cons] at hr
    obtain ⟨m, h1, h2⟩ := chain_append.1 hr
    cases h2 with
    | cons h2 h3 =>
      refine ⟨m, _, ?_, h2⟩
      have := explains_run (explains_init users clients) h1 (Nat.lt_of_le_of_lt (pod_run (.cons h2 h3)) hp)
      simpa using this
  have mem_ : ∀ {k e}, (k, e) ∈ g → ∃ s1 s2 : StoreState, s1.Answers e s2 := by
    intro k e hm
    obtain ⟨a, b, he⟩ := List.append_of_mem hm
    obtain ⟨s1, s2, _, h⟩ := at_ he
    exact ⟨s1, s2, h⟩
  have hall := explains_run (explains_init users clients) hr hp
  rw [List.nil_append] at hall
  constructor
  · intro k uid cid sc i hm
    obtain ⟨s1, s2, h⟩ := mem_ hm
    unfold Answers at h; simp only [step] at h
    rcases h with ⟨j, _, h1, h2, h3, _⟩ | ⟨_, h3, _⟩
    · cases h3; exact ⟨h1, h2⟩
    · cases h3; exact ⟨rfl, rfl⟩
  · intro k uid cid i hm
    obtain ⟨s1, s2, h⟩ := mem_ hm
    unfold Answers at h; simp only [step] at h
    cases h.1
  · intro a b k id i hs
    obtain ⟨s1, s2, hx, h⟩ := at_ hs
    unfold Answers at h; simp only [step] at h
    have hi := info_mem (answer_val h.1)
    obtain ⟨k', hm⟩ := hx.infos i hi.1
    exact ⟨hi.2, k', i, hm, hi.2⟩
  · intro k k' e e' i i' h1 h2 h3 h4 hid
    obtain ⟨j, hj, hu, hc⟩ := hall.shown k e i h1 h3
    obtain ⟨j', hj', hu', hc'⟩ := hall.shown k' e' i' h2 h4
    rw [← hid, hj] at hj'
    cases hj'
    exact ⟨hu.symm.trans hu', hc.symm.trans hc'⟩
  · intro a b k code x hs
    obtain ⟨s1, s2, hx, h⟩ := at_ hs
    unfold Answers at h; simp only [step] at h
    have hi := session_mem (answer_val h.1)
    obtain ⟨k', i, y, hm, rfl⟩ := hx.sessions _ hi.1
    exact ⟨k', i, y, hm, hi.2, rfl, rfl, rfl, rfl, rfl⟩
  · intro k i b tk hm
    obtain ⟨s1, s2, h⟩ := mem_ hm
    unfold Answers at h; simp only [step] at h
    obtain ⟨n1, n2, h, _⟩ := h
    cases h; rfl
  · intro a b k k' i old tk rt hs hm
    obtain ⟨s1, s2, hx, h⟩ := at_ hs
    unfold Answers at h; simp only [step] at h
    obtain ⟨t, n, ht, h, _⟩ := h
    cases h
    obtain ⟨n1, h1⟩ := hx.names k' rt old hm
    obtain ⟨n2, h2⟩ := hx.ok.tokenNames t (token_mem ht).1
    rw [(token_mem ht).2, h1] at h2
    exact (tokenName_inj h2).symm
  · intro a b k tok tk hs
    obtain ⟨s1, s2, hx, h⟩ := at_ hs
    unfold Answers at h; simp only [step] at h
    have hi := token_mem (answer_val h.1)
    obtain ⟨k', e, hm, hiss⟩ := hx.tokens tk hi.1
    refine ⟨k', tk, hi.2, rfl, ?_⟩
    cases hiss with
    | created i b => exact .inl ⟨i, b, hm⟩
    | refreshed i old => exact .inr ⟨i, old, hm⟩

end Goidc
