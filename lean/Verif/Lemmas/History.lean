import Verif.Lemmas.Exec
import Verif.Spec.Calls

/-! # Properties of calls that depend on the calls made before -/

namespace Goidc

variable {α β ε : Type}

/-- Every call `q` the program makes satisfies `P h q`, where `h` is everything that happened before. -/
def AllH (P : List Event → Query → Prop) : List Event → Prog α → Prop
  | _, .ret _ => True
  | _, .panic => True
  | h, .call q k => P h q ∧ ∀ r, AllH P (h ++ [⟨q, r⟩]) (k r)

theorem allH_steps {P} {p : Prog α} {h pre e post} (ha : AllH P h p) (hs : Steps p (pre ++ e :: post)) :
    P (h ++ pre) e.q := by
  induction p generalizing h pre with
  | ret a => exact absurd (show pre ++ e :: post = [] from hs) (by simp)
  | panic => exact absurd (show pre ++ e :: post = [] from hs) (by simp)
  | call q k ih =>
    rcases hs with hs | ⟨r, t', ht, hs⟩
    · exact absurd hs (by simp)
    · cases pre with
      | nil =>
        simp only [List.nil_append, List.cons.injEq] at ht
        obtain ⟨rfl, rfl⟩ := ht
        simpa using ha.1
      | cons x pre =>
        simp only [List.cons_append, List.cons.injEq] at ht
        obtain ⟨rfl, rfl⟩ := ht
        simpa using ih r (ha.2 r) hs

theorem allH_bind {P} {p : Prog α} {f : α → Prog β} {h} (hp : AllH P h p)
    (hf : ∀ a t, Runs p t (.ok a) → AllH P (h ++ t) (f a)) : AllH P h (p.bind f) := by
  induction p generalizing h with
  | ret a =>
    have := hf a [] ⟨rfl, rfl⟩
    rw [List.append_nil] at this
    exact this
  | panic => trivial
  | call q k ih =>
    exact ⟨hp.1, fun r => ih r (hp.2 r) fun a t hr => by
      simpa using hf a (⟨q, r⟩ :: t) ⟨r, t, rfl, hr⟩⟩

theorem allH_ask {P} {q : Query} {h} (hq : P h q) : AllH P h (ask q) := ⟨hq, fun _ => trivial⟩

theorem allH_ask_bind {P} {q : Query} {f : q.Resp → Prog β} {h} (hq : P h q)
    (hf : ∀ r, AllH P (h ++ [⟨q, r⟩]) (f r)) : AllH P h ((ask q).bind f) := ⟨hq, hf⟩

theorem allH_of_allQ {P : List Event → Query → Prop} {Q : Query → Prop} {p : Prog α} {h} (hp : AllQ Q p)
    (hq : ∀ t q, Q q → P (h ++ t) q) : AllH P h p := by
  induction p generalizing h with
  | ret a => trivial
  | panic => trivial
  | call q k ih =>
    exact ⟨by simpa using hq [] q hp.1, fun r => ih r (hp.2 r) fun t q' h' => by
      simpa using hq (⟨q, r⟩ :: t) q' h'⟩

theorem allH_mono {P Q : List Event → Query → Prop} {p : Prog α} {h} (hp : AllH P h p)
    (hq : ∀ t q, P (h ++ t) q → Q (h ++ t) q) : AllH Q h p := by
  induction p generalizing h with
  | ret a => trivial
  | panic => trivial
  | call q k ih =>
    exact ⟨by simpa using hq [] q (by simpa using hp.1), fun r => ih r (hp.2 r) fun t q' h' => by
      simpa using hq (⟨q, r⟩ :: t) q' (by simpa using h')⟩

/-- Once `P` holds of every call whatever comes before. -/
theorem allH_of_forall {P : List Event → Query → Prop} {p : Prog α} {h} (hq : ∀ t q, P (h ++ t) q) :
    AllH P h p := by
  induction p generalizing h with
  | ret a => trivial
  | panic => trivial
  | call q k ih =>
    exact ⟨by simpa using hq [] q, fun r => ih r fun t q' => by simpa using hq (⟨q, r⟩ :: t) q'⟩

theorem allH_xbind {P} {p : ExceptT ε Prog α} {f : α → ExceptT ε Prog β} {h} (hp : AllH P h p.run)
    (hf : ∀ a t, XOk p t a → AllH P (h ++ t) (f a).run) : AllH P h (p >>= f).run := by
  rw [xrun_bind]
  refine allH_bind hp fun r t hr => ?_
  cases r with
  | ok a => exact hf a t hr
  | error e => trivial

theorem allH_xlift {P} {p : Prog α} {h} (hp : AllH P h p) : AllH P h (ExceptT.lift p : ExceptT ε Prog α).run := by
  rw [xrun_lift]
  exact allH_bind hp fun _ _ _ => trivial

/-! ## Panics -/

/-- No run of the program panics. -/
def NoPanic (p : Prog α) : Prop := ∀ t, ¬ Runs p t .panic

theorem noPanic_ret {a : α} : NoPanic (.ret a) := fun _ h => nomatch h.2
theorem noPanic_ask {q : Query} : NoPanic (ask q) := by
  intro t h
  obtain ⟨r, _, h⟩ := runs_ask.1 h
  cases h
theorem noPanic_bind {p : Prog α} {f : α → Prog β} (hp : NoPanic p)
    (hf : ∀ a t, Runs p t (.ok a) → NoPanic (f a)) : NoPanic (p.bind f) := by
  intro t h
  rcases runs_bind.1 h with ⟨a, t1, t2, rfl, h1, h2⟩ | ⟨h, _⟩
  · exact hf a t1 h1 t2 h2
  · exact hp t h
theorem noPanic_xbind {p : ExceptT ε Prog α} {f : α → ExceptT ε Prog β} (hp : NoPanic p.run)
    (hf : ∀ a t, XOk p t a → NoPanic (f a).run) : NoPanic (p >>= f).run := by
  rw [xrun_bind]
  refine noPanic_bind hp fun r t hr => ?_
  cases r with
  | ok a => exact hf a t hr
  | error e => exact noPanic_ret
theorem noPanic_xlift {p : Prog α} (hp : NoPanic p) : NoPanic (ExceptT.lift p : ExceptT ε Prog α).run := by
  rw [xrun_lift]
  exact noPanic_bind hp fun _ _ _ => noPanic_ret
theorem noPanic_xpure {a : α} : NoPanic (pure a : ExceptT ε Prog α).run := noPanic_ret
theorem noPanic_xthrow {e : ε} : NoPanic (throw e : ExceptT ε Prog α).run := noPanic_ret
theorem noPanic_ite {c : Prop} [Decidable c] {p q : Prog α} (h1 : c → NoPanic p) (h2 : ¬ c → NoPanic q) :
    NoPanic (if c then p else q) := by
  by_cases h : c <;> simp only [h, if_true, if_false]
  · exact h1 h
  · exact h2 h
theorem noPanic_xite {c : Prop} [Decidable c] {p q : ExceptT ε Prog α} (h1 : c → NoPanic p.run)
    (h2 : ¬ c → NoPanic q.run) : NoPanic (if c then p else q).run := by
  by_cases h : c <;> simp only [h, if_true, if_false]
  · exact h1 h
  · exact h2 h

end Goidc
