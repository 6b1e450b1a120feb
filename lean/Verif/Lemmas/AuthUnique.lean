import Verif.Lemmas.AuthDecide

/-! # The decision table of the authorization endpoint is unambiguous -/

namespace Goidc

open Spec AuthzEndpoint Props

variable {α β : Type} {lib : Lib} {policy : Policy} {r : Req} {clnt : Client} {req : Request} {info : Option AuthInfo}
  {f : Flow}

/-- The results of two stages agree. -/
def Agree (E : α → α → Prop) : α ⊕ Spec.Ending → α ⊕ Spec.Ending → Prop
  | .inl a, .inl b => E a b
  | .inr e, .inr e' => e.Alike e'
  | _, _ => False

/-- Two runs of a stage have the same calls and the same result, or some call was answered differently. -/
def Joint (R R' : Stage α) (E : α → α → Prop) : Prop :=
  ∀ c c' x y, R c x → R' c' y → (c = c' ∧ Agree E x y) ∨ Fork c c'

theorem fork_append {c c' s s' : List Event} (h : Fork c c') : Fork (c ++ s) (c' ++ s') := by
  induction c generalizing c' with
  | nil => exact h.elim
  | cons e c ih =>
    cases c' with
    | nil => exact h.elim
    | cons e' c' =>
      rcases h with h | ⟨rfl, h⟩
      · exact .inl h
      · exact .inr ⟨rfl, ih h⟩

theorem fork_append_left {c c' s : List Event} (h : Fork c c') : Fork (c ++ s) c' := by
  have := fork_append (s := s) (s' := []) h
  rwa [List.append_nil] at this

theorem fork_append_right {c c' s : List Event} (h : Fork c c') : Fork c (c' ++ s) := by
  have := fork_append (s := []) (s' := s) h
  rwa [List.append_nil] at this

theorem fork_prepend {p c c' : List Event} (h : Fork c c') : Fork (p ++ c) (p ++ c') := by
  induction p with
  | nil => exact h
  | cons e p ih => exact .inr ⟨rfl, ih⟩

theorem joint_andThen {R R' : Stage α} {E : α → α → Prop} {S S' : α → Stage β} {F : β → β → Prop}
    (h : Joint R R' E) (hs : ∀ a b, E a b → Joint (S a) (S' b) F) : Joint (R.andThen S) (R'.andThen S') F := by
  intro c c' x y hx hy
  rcases hx with ⟨e, rfl, hx⟩ | ⟨c1, c2, a, rfl, h1, h2⟩
  · rcases hy with ⟨e', rfl, hy⟩ | ⟨c1', c2', a', rfl, h1', h2'⟩
    · exact h c c' _ _ hx hy
    · rcases h c c1' _ _ hx h1' with h | h
      · exact h.2.elim
      · exact .inr (fork_append_right h)
  · rcases hy with ⟨e', rfl, hy⟩ | ⟨c1', c2', a', rfl, h1', h2'⟩
    · rcases h c1 c' _ _ h1 hy with h | h
      · exact h.2.elim
      · exact .inr (fork_append_left h)
    · rcases h c1 c1' _ _ h1 h1' with ⟨rfl, h4⟩ | h
      · rcases hs a a' h4 c2 c2' x y h2 h2' with ⟨rfl, h6⟩ | h
        · exact .inl ⟨rfl, h6⟩
        · exact .inr (fork_prepend h)
      · exact .inr (fork_append h)

theorem alike_refl (e : Spec.Ending) : e.Alike e := by
  cases e <;> simp [Spec.Ending.Alike]

theorem agree_end {E : α → α → Prop} (e : Spec.Ending) : Agree E (.inr e) (.inr e) := alike_refl e

theorem joint_ends {E : α → α → Prop} {e e' : Spec.Ending} (h : e.Alike e') : Joint (Stage.ends e) (Stage.ends e') E := by
  rintro c c' x y ⟨rfl, rfl⟩ ⟨rfl, rfl⟩
  exact .inl ⟨rfl, h⟩

theorem joint_skip : Joint Stage.skip Stage.skip Eq := by
  rintro c c' x y ⟨rfl, rfl⟩ ⟨rfl, rfl⟩
  exact .inl ⟨rfl, rfl⟩

theorem joint_last {R R' : Stage Empty} {E : α → α → Prop} (h : Joint R R' Eq) : Joint R.last R'.last E := by
  rintro c c' x y ⟨e, rfl, h1⟩ ⟨e', rfl, h2⟩
  exact h c c' _ _ h1 h2

theorem joint_identification : Joint (Identification r) (Identification r) Eq := by
  intro c c' x y hx hy
  cases hx <;> cases hy <;> simp_all [Agree, Spec.Ending.Alike, Fork] <;> grind

theorem joint_codeMade : Joint (CodeMade policy info req) (CodeMade policy info req) Eq := by
  intro c c' x y hx hy
  cases hx <;> cases hy <;> simp_all [Agree, Spec.Ending.Alike, Fork] <;> grind

theorem joint_clientFound : Joint (ClientFound req) (ClientFound req) Eq := by
  intro c c' x y hx hy
  cases hx <;> cases hy <;> simp_all [Agree, Spec.Ending.Alike, Fork] <;> grind

theorem joint_authTimeKnown : Joint (AuthTimeKnown req) (AuthTimeKnown req) Eq := by
  intro c c' x y hx hy
  cases hx <;> cases hy <;> simp_all [Agree, Spec.Ending.Alike, Fork] <;> grind

theorem joint_tokenMade : Joint (TokenMade info req f) (TokenMade info req f) Eq := by
  intro c c' x y hx hy
  cases hx <;> cases hy <;> simp_all [Agree, Spec.Ending.Alike, Fork] <;> grind

theorem joint_idTokenMade {c : Option Client} {a token code} :
    Joint (IdTokenMade policy lib c info req f a token code) (IdTokenMade policy lib c info req f a token code)
      (fun a b => a.isSome = b.isSome) := by
  intro c c' x y hx hy
  cases hx <;> cases hy <;> simp_all [Agree, Spec.Ending.Alike, Fork] <;> grind

theorem joint_issue : Joint (Issue policy lib info req) (Issue policy lib info req) Eq := by
  unfold Issue
  cases req.flow with
  | none => exact joint_ends trivial
  | some f =>
    dsimp only
    cases f.type <;> dsimp only
    · refine joint_andThen joint_codeMade ?_
      rintro a _ rfl
      exact joint_ends (alike_refl _)
    · refine joint_andThen joint_clientFound ?_
      rintro a _ rfl
      refine joint_andThen joint_tokenMade ?_
      rintro b _ rfl
      refine joint_andThen joint_authTimeKnown ?_
      rintro d _ rfl
      refine joint_andThen joint_idTokenMade ?_
      rintro (_ | x) (_ | y) h <;> simp at h
      · exact joint_ends (alike_refl _)
      · exact joint_ends (by simp [Spec.Ending.Alike, idTokenParams, List.filter_append])
    · refine joint_andThen joint_codeMade ?_
      rintro z _ rfl
      refine joint_andThen joint_clientFound ?_
      rintro a _ rfl
      refine joint_andThen joint_tokenMade ?_
      rintro b _ rfl
      refine joint_andThen joint_idTokenMade ?_
      rintro (_ | x) (_ | y) h <;> simp at h
      · exact joint_ends (alike_refl _)
      · exact joint_ends (by simp [Spec.Ending.Alike, idTokenParams, List.filter_append, List.filter_cons])
    · exact joint_ends rfl

theorem joint_earlierConsent : Joint (EarlierConsent policy req) (EarlierConsent policy req) Eq := by
  intro c c' x y hx hy
  cases hx <;> cases hy <;> simp_all [Agree, Spec.Ending.Alike, Fork] <;> grind

theorem joint_sessionNeeded : Joint (SessionNeeded req) (SessionNeeded req) Eq := by
  intro c c' x y hx hy
  cases hx <;> cases hy <;> simp_all [Agree, Spec.Ending.Alike, Fork] <;> grind

theorem joint_matchNeeded {sub hint} : Joint (MatchNeeded req sub hint) (MatchNeeded req sub hint) Eq := by
  intro c c' x y hx hy
  cases hx <;> cases hy <;> simp_all [Agree, Spec.Ending.Alike, Fork] <;> grind

theorem goodHint_unique {hint sub sub' : GoStr} {now : Int64} (h : GoodHint lib clnt hint sub now)
    (h' : GoodHint lib clnt hint sub' now) : sub = sub' := by
  obtain ⟨tk, ⟨h1, -⟩, -, h3⟩ := h
  obtain ⟨tk', ⟨h1', -⟩, -, h3'⟩ := h'
  rw [h1] at h1'; cases h1'
  rw [h3] at h3'; cases h3'
  rfl

theorem joint_hintNeeded : Joint (HintNeeded lib clnt req) (HintNeeded lib clnt req) Eq := by
  intro c c' x y hx hy
  have hu := @goodHint_unique lib clnt req.idTokenHint
  have ht : ∀ {tk tk' now now'}, ValidHint lib clnt req.idTokenHint tk now →
      ValidHint lib clnt req.idTokenHint tk' now' → tk' = tk := by
    intro tk tk' now now' h h'
    have := h.1.symm.trans h'.1
    cases this; rfl
  have hg : ∀ {sub now}, GoodHint lib clnt req.idTokenHint sub now → ∃ tk, ValidHint lib clnt req.idTokenHint tk now ∧
      SaysExpiry tk ∧ tk.claimStr b!"sub" = some sub := fun h => h
  cases hx <;> cases hy <;> simp_all [Agree, Spec.Ending.Alike, Fork] <;> grind

theorem joint_issueOrRefuse : Joint (IssueOrRefuse policy lib req) (IssueOrRefuse policy lib req) Eq := by
  refine joint_andThen joint_earlierConsent ?_
  rintro (_ | i) _ rfl
  · exact joint_ends (alike_refl _)
  · exact joint_issue

theorem joint_silent : Joint (Spec.Silent policy lib clnt req) (Spec.Silent policy lib clnt req) Eq := by
  unfold Spec.Silent
  cases clnt.nonePromptPolicy <;> dsimp only
  · exact joint_ends (alike_refl _)
  · exact joint_andThen joint_sessionNeeded fun _ _ _ => joint_last joint_issueOrRefuse
  · rintro c c' x y (⟨h, hx⟩ | ⟨h, hx⟩) (⟨h', hy⟩ | ⟨h', hy⟩)
    · exact joint_ends (alike_refl _) c c' x y hx hy
    · exact absurd h h'
    · exact absurd h' h
    · exact joint_andThen joint_sessionNeeded (fun _ _ _ => joint_andThen joint_matchNeeded fun _ _ _ =>
        joint_last joint_issueOrRefuse) c c' x y hx hy
  · refine joint_andThen joint_hintNeeded ?_
    rintro sub _ rfl
    exact joint_andThen joint_matchNeeded fun _ _ _ => joint_last joint_issueOrRefuse
  · exact joint_skip

theorem joint_loginShown : Joint (LoginShown req) (LoginShown req) Eq := by
  intro c c' x y hx hy
  cases hx <;> cases hy <;> simp_all [Agree, Spec.Ending.Alike, Fork] <;> grind

theorem joint_reauthenticated : Joint (Reauthenticated req) (Reauthenticated req) Eq := by
  intro c c' x y hx hy
  cases hx <;> cases hy <;> simp_all [Agree, Spec.Ending.Alike, Fork] <;> grind

theorem joint_youngEnough : Joint (YoungEnough req) (YoungEnough req) Eq := by
  intro c c' x y hx hy
  cases hx <;> cases hy <;> simp_all [Agree, Spec.Ending.Alike, Fork] <;> grind

theorem joint_consentOmitted : Joint (ConsentOmitted policy lib clnt req) (ConsentOmitted policy lib clnt req) Eq := by
  rintro c c' x y (⟨h, hx⟩ | ⟨h, hx⟩) (⟨h', hy⟩ | ⟨h', hy⟩)
  · exact joint_skip c c' x y hx hy
  · exact absurd h' h
  · exact absurd h h'
  · refine joint_andThen joint_earlierConsent ?_ c c' x y hx hy
    rintro (_ | i) _ rfl
    · exact joint_skip
    · exact joint_last joint_issue

theorem joint_consentShown : Joint (ConsentShown clnt req) (ConsentShown clnt req) Eq := by
  intro c c' x y hx hy
  cases hx <;> cases hy <;> simp_all [Agree, Spec.Ending.Alike, Fork] <;> grind

theorem joint_decided : Joint (Decided policy lib clnt req) (Decided policy lib clnt req) Eq := by
  refine joint_andThen (E := Eq) ?_ fun _ _ _ => joint_andThen joint_reauthenticated fun _ _ _ =>
    joint_andThen joint_youngEnough fun _ _ _ => joint_andThen joint_consentOmitted fun _ _ _ => joint_consentShown
  rintro c c' x y (⟨h, hx⟩ | ⟨h, hx⟩) (⟨h', hy⟩ | ⟨h', hy⟩)
  · exact joint_silent c c' x y hx hy
  · exact absurd h h'
  · exact absurd h' h
  · exact joint_loginShown c c' x y hx hy

theorem asks_unique {rt : GoStr} {f f' : Flow} (h : Asks rt f) (h' : Asks rt f') : f = f' := by
  rw [asks_iff] at h h'
  rw [h] at h'; cases h'; rfl

theorem effectiveScope_unique {fl : FlowType} {p q s s' : GoStr} (h : EffectiveScope fl p q s) (h' : EffectiveScope fl p q s') :
    s = s' := by
  have h := h _ _ (fields_iff.2 rfl) (fields_iff.2 rfl)
  have h' := h' _ _ (fields_iff.2 rfl) (fields_iff.2 rfl)
  split at h
  · rename_i hc
    rw [if_pos hc] at h'
    dsimp only at h h'
    rcases h with ⟨h1, h2⟩ | ⟨h1, rfl⟩ <;> rcases h' with ⟨h1', h2'⟩ | ⟨h1', rfl⟩
    · exact h2.2.2.symm.trans h2'.2.2
    · exact absurd h1' h1
    · exact absurd h1 h1'
    · rfl
  · rename_i hc
    rw [if_neg hc] at h'
    rw [h, h']

theorem firstFault_unique {l : List (Prop × GoStr × GoStr)} {a b d e : GoStr} (h : FirstFault l a d)
    (h' : FirstFault l b e) : (a, d) = (b, e) := by
  induction l with
  | nil => obtain ⟨pre, p, post, h, -⟩ := h; simp at h
  | cons x l ih =>
    obtain ⟨pre, p, post, h1, h2, h3⟩ := h
    obtain ⟨pre', p', post', h1', h2', h3'⟩ := h'
    cases pre with
    | nil =>
      cases pre' with
      | nil => simp at h1 h1'; rw [h1.1] at h1'; simp at h1'; exact Prod.ext h1'.1.2.1 h1'.1.2.2
      | cons y pre' =>
        simp at h1 h1'
        refine absurd ?_ (h2' y (by simp))
        rw [← h1'.1, h1.1]; exact h3
    | cons y pre =>
      cases pre' with
      | nil =>
        simp at h1 h1'
        refine absurd ?_ (h2 y (by simp))
        rw [← h1.1, h1'.1]; exact h3'
      | cons z pre' =>
        simp at h1 h1'
        exact ih ⟨pre, p, post, h1.2, fun x hx => h2 x (by simp [hx]), h3⟩
          ⟨pre', p', post', h1'.2, fun x hx => h2' x (by simp [hx]), h3'⟩

theorem firstFault_not {l : List (Prop × GoStr × GoStr)} {a d : GoStr} (h : FirstFault l a d) : ¬ ∀ x ∈ l, ¬ x.1 := by
  obtain ⟨pre, p, post, rfl, -, h3⟩ := h
  exact fun h => h (p, a, d) (by simp) h3

theorem asks_ne {s : GoStr} {f} (h : Asks s f) : s ≠ [] := by
  rintro rfl
  rw [asks_iff] at h
  exact absurd h (by rw [show Flow.judgeByResponseType [] = none by decide]; simp)

theorem joint_checked : Joint (Checked policy r clnt) (Checked policy r clnt) Eq := by
  intro c c' x y hx hy
  cases hx with
  | noResponseType h =>
    cases hy with
    | noResponseType => exact .inl ⟨rfl, agree_end _⟩
    | responseType h' => exact absurd h h'
    | fault h' => exact absurd h (asks_ne h')
    | noLocale h' => exact absurd h (asks_ne h')
    | ok h' => exact absurd h (asks_ne h')
  | responseType hn h =>
    cases hy with
    | noResponseType h' => exact absurd h' hn
    | responseType => exact .inl ⟨rfl, agree_end _⟩
    | fault h' => exact absurd h' (h _)
    | noLocale h' => exact absurd h' (h _)
    | ok h' => exact absurd h' (h _)
  | fault a1 a2 a3 =>
    cases hy with
    | noResponseType h => exact absurd h (asks_ne a1)
    | responseType _ h => exact absurd a1 (h _)
    | fault b1 b2 b3 =>
      cases asks_unique a1 b1
      cases effectiveScope_unique a2 b2
      cases firstFault_unique a3 b3
      exact .inl ⟨rfl, agree_end _⟩
    | noLocale b1 b2 b3 =>
      cases asks_unique a1 b1
      cases effectiveScope_unique a2 b2
      exact absurd b3 (firstFault_not a3)
    | ok b1 b2 b3 =>
      cases asks_unique a1 b1
      cases effectiveScope_unique a2 b2
      exact absurd b3 (firstFault_not a3)
  | noLocale a1 a2 a3 =>
    cases hy with
    | noResponseType h => exact absurd h (asks_ne a1)
    | responseType _ h => exact absurd a1 (h _)
    | fault b1 b2 b3 =>
      cases asks_unique a1 b1
      cases effectiveScope_unique a2 b2
      exact absurd a3 (firstFault_not b3)
    | noLocale b1 b2 b3 =>
      cases asks_unique a1 b1
      exact .inl ⟨rfl, agree_end _⟩
    | ok b1 b2 b3 => exact .inr (.inl ⟨rfl, by simp⟩)
  | @ok f scope locale m a1 a2 a3 a4 =>
    cases hy with
    | noResponseType h => exact absurd h (asks_ne a1)
    | responseType _ h => exact absurd a1 (h _)
    | fault b1 b2 b3 =>
      cases asks_unique a1 b1
      cases effectiveScope_unique a2 b2
      exact absurd a3 (firstFault_not b3)
    | noLocale b1 b2 b3 => exact .inr (.inl ⟨rfl, by simp⟩)
    | @ok f' scope' locale' m' b1 b2 b3 b4 =>
      by_cases hl : locale = locale'
      · subst hl
        cases asks_unique a1 b1
        cases effectiveScope_unique a2 b2
        have hm : m.toInt = m'.toInt → m = m' := fun h => Int64.toInt_inj.1 h
        refine .inl ⟨rfl, ?_⟩
        rcases a4 with ⟨a5, a6⟩ | ⟨a5, a6⟩ <;> rcases b4 with ⟨b5, b6⟩ | ⟨b5, b6⟩
        · cases hm (a6.trans b6.symm); rfl
        · exact absurd a5 b5
        · exact absurd b5 a5
        · cases hm (signedDecimal_unique a6 b6); rfl
      · exact .inr (.inl ⟨rfl, by simpa using hl⟩)

theorem joint_handled : Joint (Handled policy lib r) (Handled policy lib r) Eq := by
  refine joint_andThen joint_identification ?_
  rintro c _ rfl
  refine joint_andThen joint_checked ?_
  rintro req _ rfl
  exact joint_decided

theorem joint_completed : Joint (Completed policy lib req) (Completed policy lib req) Eq := by
  refine joint_andThen (E := Eq) ?_ ?_
  · intro c c' x y hx hy
    cases hx <;> cases hy <;> simp_all [Agree, Spec.Ending.Alike, Fork] <;> grind
  · rintro c _ rfl
    exact joint_issue

theorem ends_calls {uri state : GoStr} {t c : List Event} {o : Outcome Bool} {e : Spec.Ending}
    (h : Ends lib uri state t o c e) : ∃ s, interactions t = c ++ s := by
  cases e with
  | stop b => exact ⟨[], by simpa using h.1⟩
  | crash => exact ⟨[], by simpa using h.1⟩
  | error mode code desc =>
    rcases h with ⟨resp, h, -⟩ | ⟨h, -⟩
    · exact ⟨_, h⟩
    · exact ⟨[], by simpa using h⟩
  | success mode params =>
    rcases h with ⟨resp, h, -⟩ | ⟨h, -⟩
    · exact ⟨_, h⟩
    · exact ⟨[], by simpa using h⟩

theorem ends_fork {uri state : GoStr} {t c c' : List Event} {o : Outcome Bool} {e : Spec.Ending}
    (h : Ends lib uri state t o c e) (hf : Fork c c') : Fork (interactions t) c' := by
  obtain ⟨s, hs⟩ := ends_calls h
  rw [hs]
  exact fork_append_left hf

theorem fork_prefix {c c' : List Event} (h : c <+: c') : ¬ Fork c' c := by
  obtain ⟨s, rfl⟩ := h
  induction c with
  | nil => cases s <;> exact fun h => h
  | cons e c ih =>
    rintro (h | h)
    · exact h.2 rfl
    · exact ih h.2

theorem fork_next {c0 c s : List Event} {q : Query} {a : q.Resp} (h : c0 <+: c) (hf : Fork c (c0 ++ ⟨q, a⟩ :: s)) :
    ∃ b s', c = c0 ++ ⟨q, b⟩ :: s' := by
  obtain ⟨s0, rfl⟩ := h
  induction c0 with
  | nil =>
    cases s0 with
    | nil => exact hf.elim
    | cons e s' =>
      obtain ⟨q', b⟩ := e
      rcases hf with ⟨h, -⟩ | ⟨h, -⟩
      · cases h; exact ⟨b, s', rfl⟩
      · cases h; exact ⟨a, s', rfl⟩
  | cons e c0 ih =>
    rcases hf with ⟨-, h⟩ | ⟨-, h⟩
    · exact absurd rfl h
    · obtain ⟨b, s', h⟩ := ih h
      exact ⟨b, s', by rw [List.cons_append, h]; rfl⟩

theorem alike_eq {e e' : Spec.Ending} (h : e'.Alike e) (hn : ∀ m p, e ≠ .success m p) : e' = e := by
  cases e <;> cases e' <;> simp_all [Spec.Ending.Alike]

/-- A row whose calls happen is followed. -/
theorem row_followed {t c o e} (h : Runs (handleRequest policy lib r) t o) (hc : Handled policy lib r c (.inr e))
    (hp : c <+: interactions t) :
    ∃ e', e'.Alike e ∧ Handled policy lib r c (.inr e') ∧
      Ends lib (r.formValue b!"redirect_uri") (r.formValue b!"state") t o c e' := by
  obtain ⟨c', e', h1, h2⟩ := handleRequest_table h
  rcases joint_handled c' c _ _ h1 hc with ⟨rfl, h3⟩ | h3
  · exact ⟨e', h3, h1, h2⟩
  · exact absurd (ends_fork h2 h3) (fork_prefix hp)

/-- The next call is determined. -/
theorem row_next {t c0 s o e} {q : Query} {a : q.Resp} (h : Runs (handleRequest policy lib r) t o)
    (hc : Handled policy lib r (c0 ++ ⟨q, a⟩ :: s) (.inr e)) (hp : c0 <+: interactions t) :
    ∃ b s', interactions t = c0 ++ ⟨q, b⟩ :: s' := by
  obtain ⟨c', e', h1, h2⟩ := handleRequest_table h
  rcases joint_handled c' _ _ _ h1 hc with ⟨rfl, h3⟩ | h3
  · obtain ⟨s', hs⟩ := ends_calls h2
    exact ⟨a, s ++ s', by rw [hs]; simp⟩
  · exact fork_next hp (ends_fork h2 h3)

/-- Whatever answers are wanted, there is a run that gets them as long as it makes these calls. -/
theorem run_following (p : Prog α) (c : List Event) : ∃ t o, Runs p t o ∧ ¬ Fork (interactions t) c := by
  induction p generalizing c with
  | ret a => exact ⟨[], _, ⟨rfl, rfl⟩, fun h => h.elim⟩
  | panic => exact ⟨[], _, ⟨rfl, rfl⟩, fun h => h.elim⟩
  | call q k ih =>
    by_cases hq : counts q = true
    · cases c with
      | nil =>
        obtain ⟨t, o, h1, _⟩ := ih default []
        refine ⟨⟨q, default⟩ :: t, o, ⟨_, _, rfl, h1⟩, ?_⟩
        rw [interactions_cons hq]
        exact fun h => h
      | cons e c =>
        obtain ⟨q', a⟩ := e
        by_cases he : q = q'
        · subst he
          obtain ⟨t, o, h1, h2⟩ := ih a c
          refine ⟨⟨q, a⟩ :: t, o, ⟨_, _, rfl, h1⟩, ?_⟩
          rw [interactions_cons hq]
          rintro (h | h)
          · exact h.2 rfl
          · exact h2 h.2
        · obtain ⟨t, o, h1, _⟩ := ih default []
          refine ⟨⟨q, default⟩ :: t, o, ⟨_, _, rfl, h1⟩, ?_⟩
          rw [interactions_cons hq]
          rintro (h | h)
          · exact he h.1
          · exact he (congrArg Event.q h.1)
    · obtain ⟨t, o, h1, h2⟩ := ih default c
      refine ⟨⟨q, default⟩ :: t, o, ⟨_, _, rfl, h1⟩, ?_⟩
      have : interactions (⟨q, default⟩ :: t) = interactions t := by
        unfold interactions
        exact List.filter_cons_of_neg hq
      rwa [this]

end Goidc
