import Verif.Lemmas.Prog
import Verif.Spec.Calls

/-! # When a program writes its HTTP response -/

namespace Goidc

variable {α β ε : Type}

/-- `p` writes exactly one response, as its last call, when it returns a value with `Q`, none when it
returns another value, and none when it panics. -/
structure Writes (Q : α → Prop) (p : Prog α) : Prop where
  ok : ∀ {t a}, Runs p t (.ok a) →
    (Q a ∧ ∃ pre resp, NoWrite pre ∧ t = pre ++ [wrote resp]) ∨ (¬ Q a ∧ NoWrite t)
  panic : ∀ {t}, Runs p t .panic → NoWrite t

theorem noWrite_nil : NoWrite [] := by simp [NoWrite]
theorem noWrite_append {s t : List Event} : NoWrite (s ++ t) ↔ NoWrite s ∧ NoWrite t := by
  simp only [NoWrite, List.mem_append]
  exact ⟨fun h => ⟨fun e he => h e (.inl he), fun e he => h e (.inr he)⟩,
    fun h e he => he.elim (h.1 e) (h.2 e)⟩
theorem noWrite_cons {e : Event} {t : List Event} :
    NoWrite (e :: t) ↔ e.q.isWrite = false ∧ NoWrite t := by simp [NoWrite]

theorem writes_ret {Q : α → Prop} {a : α} (h : ¬ Q a) : Writes Q (.ret a) :=
  ⟨fun hr => by obtain ⟨rfl, hr⟩ := hr; cases hr; exact .inr ⟨h, noWrite_nil⟩,
    fun hr => nomatch hr.2⟩

theorem writes_panic {Q : α → Prop} : Writes Q (.panic : Prog α) :=
  ⟨fun hr => (nomatch hr.2), fun hr => hr.1 ▸ noWrite_nil⟩

theorem writes_respond {Q : Unit → Prop} {r : HttpResp} (h : Q ()) : Writes Q (respond r) := by
  constructor
  · intro t a hr
    replace hr := runs_ask.1 hr
    obtain ⟨x, rfl, hx⟩ := hr
    exact .inl ⟨h, [], r, noWrite_nil, rfl⟩
  · intro t hr
    replace hr := runs_ask.1 hr
    obtain ⟨x, _, hx⟩ := hr
    cases hx

/-- A program that makes no writing call. -/
theorem writes_of_allQ {Q : α → Prop} {p : Prog α} (hp : AllQ (fun q => q.isWrite = false) p)
    (h : ∀ a, ¬ Q a) : Writes Q p :=
  ⟨fun hr => .inr ⟨h _, allQ_runs hp hr⟩, fun hr => allQ_runs hp hr⟩

theorem writes_bind {Q : α → Prop} {Q' : β → Prop} {p : Prog α} {f : α → Prog β} (hp : Writes Q p)
    (h1 : ∀ a, Q a → ∃ b, Q' b ∧ f a = .ret b) (h2 : ∀ a, ¬ Q a → Writes Q' (f a)) :
    Writes Q' (p.bind f) := by
  constructor
  · intro t b hr
    rcases runs_bind.1 hr with ⟨a, t1, t2, rfl, hr1, hr2⟩ | ⟨_, h⟩
    · rcases hp.ok hr1 with ⟨hq, pre, resp, hn, rfl⟩ | ⟨hq, hn⟩
      · obtain ⟨b', hb, hf⟩ := h1 a hq
        rw [hf] at hr2
        obtain ⟨rfl, hr2⟩ := hr2
        cases hr2
        exact .inl ⟨hb, pre, resp, hn, by simp⟩
      · rcases (h2 a hq).ok hr2 with ⟨hq', pre, resp, hn', rfl⟩ | ⟨hq', hn'⟩
        · exact .inl ⟨hq', t1 ++ pre, resp, noWrite_append.2 ⟨hn, hn'⟩, by simp⟩
        · exact .inr ⟨hq', noWrite_append.2 ⟨hn, hn'⟩⟩
    · cases h
  · intro t hr
    rcases runs_bind.1 hr with ⟨a, t1, t2, rfl, hr1, hr2⟩ | ⟨h, _⟩
    · rcases hp.ok hr1 with ⟨hq, pre, resp, hn, rfl⟩ | ⟨hq, hn⟩
      · obtain ⟨b', hb, hf⟩ := h1 a hq
        rw [hf] at hr2
        cases hr2.2
      · exact noWrite_append.2 ⟨hn, (h2 a hq).panic hr2⟩
    · exact hp.panic h

theorem writes_bind_silent {Q' : β → Prop} {p : Prog α} {f : α → Prog β}
    (hp : AllQ (fun q => q.isWrite = false) p) (h2 : ∀ a, Writes Q' (f a)) : Writes Q' (p.bind f) :=
  writes_bind (Q := fun _ => False) (writes_of_allQ hp (fun _ h => h)) (fun _ h => h.elim)
    (fun a _ => h2 a)

theorem writes_ask_bind {q : Query} (hq : q.isWrite = false) {Q' : β → Prop} {f : q.Resp → Prog β}
    (h2 : ∀ a, Writes Q' (f a)) : Writes Q' ((ask q).bind f) :=
  writes_bind_silent (allQ_ask hq) h2

/-- A crash-point trace ending with a written response is a complete run. -/
theorem Writes.complete {Q : α → Prop} {p : Prog α} (hp : Writes Q p) {pre : List Event} {resp}
    (h : Steps p (pre ++ [wrote resp])) :
    ∃ a, Q a ∧ Runs p (pre ++ [wrote resp]) (.ok a) ∧ NoWrite pre := by
  obtain ⟨t', o, hr⟩ := steps_complete h
  have hw : ¬ NoWrite (pre ++ [wrote resp] ++ t') := by
    intro hn
    exact absurd (hn (wrote resp) (by simp)) (by simp [Query.isWrite])
  cases o with
  | panic => exact absurd (hp.panic hr) hw
  | ok a =>
    rcases hp.ok hr with ⟨hq, pre', resp', hn, he⟩ | ⟨_, hn⟩
    · have ht' : t' = [] := by
        rcases List.eq_nil_or_concat t' with h | ⟨l, x, h⟩
        · exact h
        · subst h
          have h2 : pre ++ [wrote resp] ++ l = pre' := by
            have := congrArg List.dropLast he
            simpa [← List.append_assoc] using this
          exact absurd (hn (wrote resp) (by rw [← h2]; simp)) (by simp [Query.isWrite])
      subst ht'
      rw [List.append_nil] at he hr
      have h2 := List.append_inj_left' he rfl
      subst h2
      exact ⟨a, hq, hr, hn⟩
    · exact absurd hn hw

/-- Nothing follows a written response. -/
theorem Writes.last {Q : α → Prop} {p : Prog α} (hp : Writes Q p) {pre post : List Event} {resp}
    (h : Steps p (pre ++ wrote resp :: post)) : post = [] := by
  have h1 : Steps p (pre ++ [wrote resp]) := steps_of_append (t' := post) (by simpa using h)
  obtain ⟨a, _, hr, _⟩ := hp.complete h1
  have key : ∀ {α} {p : Prog α} {t t' o}, Runs p t o → Steps p (t ++ t') → t' = [] := by
    intro α p
    induction p with
    | ret a => intro t t' o hr hs; rw [hr.1] at hs; simpa [Steps] using hs
    | panic => intro t t' o hr hs; rw [hr.1] at hs; simpa [Steps] using hs
    | call q k ih =>
      intro t t' o hr hs
      obtain ⟨r, t1, rfl, hr⟩ := hr
      rcases hs with h | ⟨r2, t2, h, hs⟩
      · simp at h
      · simp only [List.cons_append, List.cons.injEq] at h
        obtain ⟨h, rfl⟩ := h
        cases h
        exact ih r hr hs
  exact key hr (by simpa using h)

end Goidc
