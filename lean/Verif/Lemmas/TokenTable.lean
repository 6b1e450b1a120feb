import Verif.Spec.TokenDecision
import Verif.Lemmas.AuthUnique
import Verif.Lemmas.Accept
import Verif.Lemmas.GrantAnatomy
import Verif.Props.ErrorRender

/-! # Proof of the decision table of the token endpoint -/

namespace Goidc

open Spec Props

variable {α β γ : Type}

/-! ## Tables -/

theorem table_pure {a : α} : (pure a : Table α) [] (.inl a) := ⟨rfl, rfl⟩

theorem table_end {R : Table α} {S : α → Table β} {c e} (h : R c (.inr e)) : (R >>= S) c (.inr e) := .inl ⟨e, rfl, h⟩

theorem table_next {R : Table α} {S : α → Table β} {c c' x res} (h : R c (.inl x)) (h' : S x c' res) :
    (R >>= S) (c ++ c') res := .inr ⟨_, _, x, rfl, h, h'⟩

theorem table_bind {R : Table α} {S : α → Table β} {c res} : (R >>= S) c res ↔
    (∃ e, res = .inr e ∧ R c (.inr e)) ∨ ∃ c1 c2 x, c = c1 ++ c2 ∧ R c1 (.inl x) ∧ S x c2 res := Iff.rfl

/-! ## Grant functions that follow a table -/

/-- The error codes of the token endpoint. -/
def tokenErr : OAuthErrorType → Bool
  | .invalidRequest | .invalidClient | .invalidGrant | .invalidScope | .serverError | .unauthorizedClient
  | .unsupportedGrantType => true
  | _ => false

/-- An error of the token endpoint. -/
def OkErr (e : OAuthError) : Prop := e.uri = [] ∧ tokenErr e.type = true

/-- `p` follows the table `R`: the end of `R` is the error of `p`. -/
def GF (p : GrantM α) (R : Table α) : Prop := ∀ t o, Runs p.run t o →
  (∀ a, o = .ok (.ok a) → R (interactions t) (.inl a)) ∧
  (∀ e, o = .ok (.error e) → OkErr e ∧ R (interactions t) (.inr (.refused e.type e.description))) ∧
  (o = .panic → R (interactions t) (.inr .crash))

theorem gf_pure {a : α} : GF (pure a) (pure a) := by
  intro t o h
  obtain ⟨rfl, rfl⟩ := runs_xpure h
  refine ⟨?_, ?_, ?_⟩
  · rintro _ ⟨⟩; exact table_pure
  · rintro _ ⟨⟩
  · rintro ⟨⟩

theorem gf_throw {e : OAuthError} {R : Table α} (hu : OkErr e) (h : R [] (.inr (.refused e.type e.description))) :
    GF (throw e) R := by
  rintro t o ⟨rfl, rfl⟩
  refine ⟨?_, ?_, ?_⟩
  · rintro _ ⟨⟩
  · rintro _ ⟨⟩; exact ⟨hu, h⟩
  · rintro ⟨⟩

theorem gf_panic {R : Table α} (h : R [] (.inr .crash)) : GF (gpanic : GrantM α) R := by
  rintro t o ⟨rfl, rfl⟩
  refine ⟨?_, ?_, ?_⟩
  · rintro _ ⟨⟩
  · rintro _ ⟨⟩
  · rintro ⟨⟩; exact h

theorem gf_log {lv gt ev ps} {f : Unit → GrantM α} {R : Table α} (h : GF (f ()) R) :
    GF (glog lv gt ev ps >>= f) R := by
  intro t o hr
  replace hr := runs_glog_bind.1 hr
  obtain ⟨t', rfl, hr'⟩ := hr
  exact h t' o hr'

theorem gf_bind {p : GrantM α} {f : α → GrantM β} {R : Table α} {S : α → Table β} (h : GF p R)
    (hf : ∀ c a, R c (.inl a) → GF (f a) (S a)) : GF (p >>= f) (R >>= S) := by
  intro t o hr
  rw [xrun_bind, runs_bind] at hr
  rcases hr with ⟨x, t1, t2, rfl, h1, h2⟩ | ⟨h1, rfl⟩
  · cases x with
    | ok a =>
      have ha := (h _ _ h1).1 a rfl
      obtain ⟨k1, k2, k3⟩ := hf _ a ha t2 o h2
      rw [interactions_append]
      exact ⟨fun b hb => table_next ha (k1 b hb), fun e he => ⟨(k2 e he).1, table_next ha (k2 e he).2⟩,
        fun hp => table_next ha (k3 hp)⟩
    | error e =>
      obtain ⟨rfl, rfl⟩ := h2
      have he := (h _ _ h1).2.1 e rfl
      rw [List.append_nil]
      refine ⟨?_, ?_, ?_⟩
      · rintro _ ⟨⟩
      · rintro _ ⟨⟩; exact ⟨he.1, table_end he.2⟩
      · rintro ⟨⟩
  · have := (h _ _ h1).2.2 rfl
    refine ⟨?_, ?_, ?_⟩
    · rintro _ ⟨⟩
    · rintro _ ⟨⟩
    · rintro ⟨⟩; exact table_end this

/-! ### Matching the head of the table -/

theorem gf_done {p : GrantM β} {a : α} {S : α → Table β} (h : GF p (S a)) : GF p (pure a >>= S) := by
  intro t o hr
  obtain ⟨k1, k2, k3⟩ := h t o hr
  exact ⟨fun b hb => table_next (c := []) table_pure (k1 b hb),
    fun e he => ⟨(k2 e he).1, table_next (c := []) table_pure (k2 e he).2⟩,
    fun hp => table_next (c := []) table_pure (k3 hp)⟩

theorem gf_head {p : GrantM β} {a : α} {R : Table α} {S : α → Table β} (h0 : R [] (.inl a)) (h : GF p (S a)) :
    GF p (R >>= S) := by
  intro t o hr
  obtain ⟨k1, k2, k3⟩ := h t o hr
  exact ⟨fun b hb => table_next (c := []) h0 (k1 b hb), fun e he => ⟨(k2 e he).1, table_next (c := []) h0 (k2 e he).2⟩,
    fun hp => table_next (c := []) h0 (k3 hp)⟩

theorem endIf_pos {p : Prop} {e} (h : p) : endIf p e [] (.inr e) := ⟨rfl, .inl ⟨h, rfl⟩⟩
theorem endIf_neg {p : Prop} {e} (h : ¬ p) : endIf p e [] (.inl ()) := ⟨rfl, .inr ⟨h, rfl⟩⟩
theorem find_some {P : α → Prop} {e a} (h : P a) : find P e [] (.inl a) := ⟨rfl, .inl ⟨a, h, rfl⟩⟩
theorem find_none {P : α → Prop} {e} (h : ∀ a, ¬ P a) : find P e [] (.inr e) := ⟨rfl, .inr ⟨h, rfl⟩⟩

theorem gf_observe {q : Query} {f : q.Resp → GrantM β} {S : q.Resp → Table β} (hq : counts q = true)
    (h : ∀ x, GF (f x) (S x)) : GF (gask q >>= f) (observe q >>= S) := by
  intro t o hr
  replace hr := runs_gask_bind.1 hr
  obtain ⟨x, t', rfl, hr'⟩ := hr
  obtain ⟨k1, k2, k3⟩ := h x t' o hr'
  rw [interactions_cons hq]
  have h0 : observe q [⟨q, x⟩] (.inl x) := ⟨x, rfl, rfl⟩
  exact ⟨fun b hb => table_next h0 (k1 b hb), fun e he => ⟨(k2 e he).1, table_next h0 (k2 e he).2⟩,
    fun hp => table_next h0 (k3 hp)⟩

/-- A call whose answer ends the request or not. -/
theorem gf_ask {q : Query} {f : q.Resp → GrantM β} {R : Table α} {S : α → Table β} (hq : counts q = true)
    (h : ∀ x, (∃ a, R [⟨q, x⟩] (.inl a) ∧ GF (f x) (S a)) ∨
      (∃ e : OAuthError, OkErr e ∧ R [⟨q, x⟩] (.inr (.refused e.type e.description)) ∧
        GF (f x) (fun c res => c = [] ∧ res = .inr (.refused e.type e.description)))) :
    GF (gask q >>= f) (R >>= S) := by
  intro t o hr
  replace hr := runs_gask_bind.1 hr
  obtain ⟨x, t', rfl, hr'⟩ := hr
  rw [interactions_cons hq]
  rcases h x with ⟨a, h0, h⟩ | ⟨e, hu, h0, h⟩
  · obtain ⟨k1, k2, k3⟩ := h t' o hr'
    exact ⟨fun b hb => table_next h0 (k1 b hb), fun e he => ⟨(k2 e he).1, table_next h0 (k2 e he).2⟩,
      fun hp => table_next h0 (k3 hp)⟩
  · obtain ⟨k1, k2, k3⟩ := h t' o hr'
    refine ⟨fun b hb => ?_, fun e' he => ⟨(k2 e' he).1, ?_⟩, fun hp => ?_⟩
    · cases (k1 b hb).2
    · obtain ⟨k, k'⟩ := (k2 e' he).2
      rw [k]
      rw [k']
      exact table_end h0
    · cases (k3 hp).2

theorem gf_onErr {gt s e} {R : Table α} (hu : OkErr s.failError)
    (h1 : e = .failed → R [] (.inr (.refused s.failError.type s.failError.description)))
    (h2 : e ≠ .failed → R [] (.inr (.refused .serverError []))) : GF (onErr gt s e : GrantM α) R := by
  unfold onErr
  cases e
  case failed => exact gf_log (gf_throw hu (h1 rfl))
  all_goals exact gf_log (gf_throw ⟨rfl, rfl⟩ (h2 (by simp)))

theorem gf_obtain {q : Query} {value : q.Resp → Option α × Option ErrType} {gt s} {f : α → GrantM β} {S : α → Table β}
    {code desc} (hq : counts q = true) (hs : s.failError = ⟨code, desc, []⟩) (hc : tokenErr code = true) (hf : ∀ a, GF (f a) (S a)) :
    GF (gask q >>= fun x => checkVal gt s (value x) >>= f) (Obtain q value (.refused code desc) >>= S) := by
  refine gf_ask hq fun x => ?_
  rcases hv : value x with ⟨v, _ | err⟩
  · cases v with
    | none =>
      refine .inr ⟨OAuthError.simple .serverError, ⟨rfl, rfl⟩, .nothing hv, ?_⟩
      exact gf_log (gf_throw ⟨rfl, rfl⟩ ⟨rfl, rfl⟩)
    | some a => exact .inl ⟨a, .value hv, hf a⟩
  · by_cases he : err = .failed
    · subst he
      refine .inr ⟨⟨code, desc, []⟩, ⟨rfl, hc⟩, .refused hv, ?_⟩
      rw [show checkVal gt s (v, some .failed) = onErr gt s .failed from rfl]
      unfold onErr
      rw [hs]
      exact gf_log (gf_throw ⟨rfl, hc⟩ ⟨rfl, rfl⟩)
    · refine .inr ⟨OAuthError.simple .serverError, ⟨rfl, rfl⟩, .failed hv he, ?_⟩
      rw [show checkVal gt s (v, some err) = onErr gt s err from rfl]
      unfold onErr
      cases err
      case failed => exact absurd rfl he
      all_goals exact gf_log (gf_throw ⟨rfl, rfl⟩ ⟨rfl, rfl⟩)

theorem checkErr_checkVal {gt s} {a : α} {e : Option ErrType} {f : Unit → GrantM β} :
    (checkErr gt s e >>= f) = (checkVal gt s (some a, e) >>= fun _ => f ()) := by
  cases e with
  | none => rfl
  | some e =>
    show (onErr gt s e : GrantM Unit) >>= f = (onErr gt s e : GrantM α) >>= fun _ => f ()
    cases e <;> rfl

theorem gf_obtainErr {q : Query} {err : q.Resp → Option ErrType} {val : q.Resp → α} {gt s} {f : q.Resp → GrantM β} {S : α → Table β}
    {code desc} (hq : counts q = true) (hs : s.failError = ⟨code, desc, []⟩) (hc : tokenErr code = true) (hf : ∀ x, GF (f x) (S (val x))) :
    GF (gask q >>= fun x => checkErr gt s (err x) >>= fun _ => f x)
      (Obtain q (fun x => (some (val x), err x)) (.refused code desc) >>= S) := by
  refine gf_ask hq fun x => ?_
  cases hv : err x with
  | none => exact .inl ⟨val x, .value (by simp [hv]), hf x⟩
  | some e =>
    by_cases he : e = .failed
    · subst he
      refine .inr ⟨⟨code, desc, []⟩, ⟨rfl, hc⟩, .refused (v := some (val x)) (by simp [hv]), ?_⟩
      rw [show checkErr gt s (some .failed) = onErr gt s .failed from rfl]
      unfold onErr
      rw [hs]
      exact gf_log (gf_throw ⟨rfl, hc⟩ ⟨rfl, rfl⟩)
    · refine .inr ⟨OAuthError.simple .serverError, ⟨rfl, rfl⟩, .failed (v := some (val x)) (err := e) (by simp [hv]) he, ?_⟩
      rw [show checkErr gt s (some e) = onErr gt s e from rfl]
      unfold onErr
      cases e
      case failed => exact absurd rfl he
      all_goals exact gf_log (gf_throw ⟨rfl, rfl⟩ ⟨rfl, rfl⟩)

end Goidc
