import Verif.Lemmas.TestStore
import Verif.Lemmas.Int64
import Verif.Spec.Clock
import Verif.Spec.Origin

/-! # The ages of the tokens of the reference store -/

namespace Goidc

open Spec

namespace StoreState

theorem stepAt_step {s s' : StoreState} {n1 n2 : Int64} {e : Event} (h : s.stepAt n1 n2 e.q e.r s') : s.Answers e s' := by
  obtain ⟨q, r⟩ := e
  unfold Answers
  cases q <;> simp only [stepAt, step] at h ⊢
  case createOAuthToken info b =>
    cases info with
    | none => exact h
    | some i => exact ⟨n1, n2, h⟩
  case refreshAccessToken i old =>
    obtain ⟨t, h⟩ := h
    exact ⟨t, n1, h⟩
  all_goals first | exact h | exact h.2

theorem clock_run {s s' : StoreState} {lo hi : Int64} {t : List Event} (h : ClockRun s lo t hi s') : StoreRun s t s' := by
  induction h with
  | nil _ => exact .nil _
  | cons _ _ h _ ih => exact .cons (stepAt_step h) ih

theorem clock_le {s s' : StoreState} {lo hi : Int64} {t : List Event} (h : ClockRun s lo t hi s') : lo ≤ hi := by
  induction h with
  | nil h => exact h
  | cons h1 h2 _ _ ih => exact Int64.le_trans h1 (Int64.le_trans h2 ih)

theorem clock_from {s s' : StoreState} {lo mid hi : Int64} {t : List Event} (hlo : lo ≤ mid) (h : ClockRun s mid t hi s') :
    ClockRun s lo t hi s' := by
  cases h with
  | nil h => exact .nil (Int64.le_trans hlo h)
  | cons h1 h2 h3 h4 => exact .cons (Int64.le_trans hlo h1) h2 h3 h4

theorem clock_append {s s' : StoreState} {lo hi : Int64} {a b : List Event} :
    ClockRun s lo (a ++ b) hi s' ↔ ∃ m mid, ClockRun s lo a mid m ∧ ClockRun m mid b hi s' := by
  constructor
  · intro h
    induction a generalizing s lo with
    | nil => exact ⟨s, lo, .nil (Int64.le_refl _), h⟩
    | cons x a ih =>
      cases h with
      | cons h1 h2 h3 h4 =>
        obtain ⟨m, mid, h5, h6⟩ := ih h4
        exact ⟨m, mid, .cons h1 h2 h3 h5, h6⟩
  · rintro ⟨m, mid, h1, h2⟩
    induction h1 with
    | nil h =>
      cases h2 with
      | nil h' => exact .nil (Int64.le_trans h h')
      | cons h3 h4 h5 h6 => exact .cons (Int64.le_trans h h3) h4 h5 h6
    | cons h3 h4 h5 _ ih => exact .cons h3 h4 h5 (ih h2)

theorem clock_now {s s' : StoreState} {lo hi : Int64} {t : List Event} (h : ClockRun s lo t hi s') {n : Int64}
    (hn : (⟨.now, n⟩ : Event) ∈ t) : lo ≤ n ∧ n ≤ hi := by
  induction h with
  | nil => cases hn
  | cons h1 h2 h3 h4 ih =>
    rcases List.mem_cons.1 hn with rfl | hn
    · obtain ⟨rfl, _⟩ := h3
      exact ⟨h1, Int64.le_trans h2 (clock_le h4)⟩
    · have := ih hn
      exact ⟨Int64.le_trans h1 (Int64.le_trans h2 this.1), this.2⟩

/-- Where the tokens of the store come from. -/
theorem tokens_step {s s' : StoreState} {n1 n2 : Int64} {e : Event} (h : s.stepAt n1 n2 e.q e.r s') {t : OAuthToken}
    (ht : t ∈ s'.tokens) :
    t ∈ s.tokens ∨ (∃ info b, e = ⟨.createOAuthToken (some info) b, (some t, none)⟩ ∧ t = newToken info n1 n2) ∨
      ∃ i old u, e = ⟨.refreshAccessToken i old, (some t, none)⟩ ∧ u ∈ s.tokens ∧ t = refreshed u n1 := by
  obtain ⟨q, r⟩ := e
  have hset : ∀ {m : StoreState} {x : OAuthToken}, t ∈ (m.setToken x).tokens → t = x ∨ t ∈ m.tokens := by
    intro m x hm
    rcases List.mem_cons.1 hm with rfl | hm
    · exact .inl rfl
    · exact .inr (List.mem_filter.1 hm).1
  cases q <;> simp only [stepAt, step] at h
  case createOAuthToken info b =>
    cases info with
    | none => exact h.elim
    | some i =>
      obtain ⟨rfl, rfl⟩ := h
      rcases hset ht with rfl | ht
      · exact .inr (.inl ⟨i, b, rfl, rfl⟩)
      · exact .inl ht
  case refreshAccessToken i old =>
    obtain ⟨u, hu, rfl, rfl⟩ := h
    rcases hset ht with rfl | ht
    · exact .inr (.inr ⟨i, old, u, rfl, List.mem_of_find?_eq_some hu, rfl⟩)
    · exact .inl (List.mem_filter.1 ht).1
  case createOrUpdateAuthInfo =>
    rcases h with ⟨_, _, _, _, _, rfl⟩ | ⟨_, _, rfl⟩ <;> exact .inl ht
  case createAuthSession info x =>
    cases info with
    | none => exact h.elim
    | some i => obtain ⟨_, rfl⟩ := h; exact .inl ht
  all_goals first
    | (obtain ⟨_, rfl⟩ := h; exact .inl ht)
    | (obtain ⟨rfl, _⟩ := h; exact .inl ht)
    | (subst h; exact .inl ht)

/-- A property of the stored tokens is kept when the new ones have it. -/
theorem tokens_run {P : OAuthToken → Prop} {s s' : StoreState} {lo hi : Int64} {t : List Event} (h : ClockRun s lo t hi s')
    (hP : ∀ x ∈ s.tokens, P x)
    (hnew : ∀ info b n1 n2, (⟨.createOAuthToken (some info) b, (some (newToken info n1 n2), none)⟩ : Event) ∈ t →
      lo ≤ n1 → n1 ≤ n2 → n2 ≤ hi → P (newToken info n1 n2))
    (href : ∀ i old u n, (⟨.refreshAccessToken i old, (some (refreshed u n), none)⟩ : Event) ∈ t → P u →
      lo ≤ n → n ≤ hi → P (refreshed u n)) : ∀ x ∈ s'.tokens, P x := by
  induction h with
  | nil => exact hP
  | cons h1 h2 h3 h4 ih =>
    refine ih ?_ (fun info b m1 m2 hm k1 k2 k3 => hnew info b m1 m2 (List.mem_cons_of_mem _ hm)
      (Int64.le_trans h1 (Int64.le_trans h2 k1)) k2 k3) (fun i old u n hm hu k1 k2 => href i old u n
      (List.mem_cons_of_mem _ hm) hu (Int64.le_trans h1 (Int64.le_trans h2 k1)) k2)
    intro x hx
    rcases tokens_step h3 hx with hx | ⟨info, b, rfl, rfl⟩ | ⟨i, old, u, rfl, hu, rfl⟩
    · exact hP x hx
    · exact hnew info b _ _ List.mem_cons_self h1 h2 (clock_le h4)
    · exact href i old u _ List.mem_cons_self (hP u hu) h1 (Int64.le_trans h2 (clock_le h4))

/-- The stored tokens were made between `lo` and `hi` and have the lifetimes of the store. -/
structure Dated (lo hi : Int64) (t : OAuthToken) : Prop where
  access : t.accessTokenExpiresIn = 86400
  refresh : t.refreshTokenExpiresIn = 2592000
  refreshed : lo ≤ t.refreshedAt ∧ t.refreshedAt ≤ hi
  created : lo ≤ t.createdAt ∧ t.createdAt ≤ hi

theorem dated_run {s s' : StoreState} {lo mid hi : Int64} {t : List Event} (hlo : lo ≤ mid) (h : ClockRun s mid t hi s')
    (hd : ∀ x ∈ s.tokens, Dated lo mid x) : ∀ x ∈ s'.tokens, Dated lo hi x := by
  have hm := clock_le h
  refine tokens_run h (fun x hx => ?_) (fun info b n1 n2 _ k1 k2 k3 => ?_) (fun i old u n _ hu k1 k2 => ?_)
  · have := hd x hx
    exact ⟨this.access, this.refresh, ⟨this.refreshed.1, Int64.le_trans this.refreshed.2 hm⟩,
      ⟨this.created.1, Int64.le_trans this.created.2 hm⟩⟩
  · exact ⟨rfl, rfl, ⟨Int64.le_trans hlo k1, Int64.le_trans k2 k3⟩, ⟨Int64.le_trans hlo (Int64.le_trans k1 k2), k3⟩⟩
  · exact ⟨rfl, hu.refresh, ⟨Int64.le_trans hlo k1, k2⟩, hu.created⟩

/-- The token an event hands out is the only one of its name. -/
theorem issued_only {s s' : StoreState} {n1 n2 : Int64} {e : Event} {tk : OAuthToken} (h : s.stepAt n1 n2 e.q e.r s')
    (hi : Issues tk e) : n1 ≤ n2 → tk ∈ s'.tokens ∧ n1 ≤ tk.refreshedAt ∧ tk.refreshedAt ≤ n2 ∧
      ∀ x ∈ s'.tokens, x.accessToken = tk.accessToken → x = tk := by
  intro h12
  have hset : ∀ {m : StoreState} {y x : OAuthToken}, x ∈ (m.setToken y).tokens → x.accessToken = y.accessToken → x = y := by
    intro m y x hm he
    rcases List.mem_cons.1 hm with rfl | hm
    · rfl
    · simpa [he] using (List.mem_filter.1 hm).2
  cases hi with
  | created info f =>
    obtain ⟨he, rfl⟩ := h
    cases he
    exact ⟨List.mem_cons_self, Int64.le_refl _, h12, fun x hx => hset hx⟩
  | refreshed info old =>
    obtain ⟨u, _, he, rfl⟩ := h
    cases he
    exact ⟨List.mem_cons_self, Int64.le_refl _, h12, fun x hx => hset hx⟩

/-- Splitting a run at one of its calls. -/
theorem clock_at {s s' : StoreState} {lo hi : Int64} {a b : List Event} {e : Event} (h : ClockRun s lo (a ++ e :: b) hi s') :
    ∃ m m' mid n1 n2, ClockRun s lo a mid m ∧ mid ≤ n1 ∧ n1 ≤ n2 ∧ m.stepAt n1 n2 e.q e.r m' ∧ ClockRun m' n2 b hi s' := by
  obtain ⟨m, mid, h1, h2⟩ := clock_append.1 h
  cases h2 with
  | cons h3 h4 h5 h6 => exact ⟨m, _, mid, _, _, h1, h3, h4, h5, h6⟩

end StoreState

end Goidc
