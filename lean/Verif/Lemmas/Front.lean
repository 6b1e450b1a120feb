import Verif.Spec.FrontChannel
import Verif.Lemmas.Escape
import Verif.Lemmas.Writes

/-! # Runs of the front-channel response handlers -/

namespace Goidc

open Spec

theorem cut_fst_append_rest (sep : UInt8) : ∀ s : GoStr,
    (cut sep s).1 ++ (if (cut sep s).2.2 then sep :: (cut sep s).2.1 else []) = s
  | [] => rfl
  | c :: cs => by
    have ih := cut_fst_append_rest sep cs
    unfold cut
    by_cases h : c = sep
    · simp [h]
    · simp only [h, if_false, List.cons_append, ih]

theorem cut_fst_no_sep (sep : UInt8) : ∀ s : GoStr, sep ∉ (cut sep s).1
  | [] => by simp [cut]
  | c :: cs => by
    unfold cut
    by_cases h : c = sep
    · simp [h]
    · simp only [h, if_false, List.mem_cons, not_or]
      exact ⟨fun e => h e.symm, cut_fst_no_sep sep cs⟩

theorem cut_false_snd (sep : UInt8) : ∀ s : GoStr, (cut sep s).2.2 = false → (cut sep s).2.1 = []
  | [] => by simp [cut]
  | c :: cs => by
    unfold cut
    by_cases h : c = sep
    · simp [h]
    · simp only [h, if_false]
      exact cut_false_snd sep cs

theorem cut_true_iff (sep : UInt8) : ∀ s : GoStr, (cut sep s).2.2 = true ↔ sep ∈ s
  | [] => by simp [cut]
  | c :: cs => by
    unfold cut
    by_cases h : c = sep
    · simp [h]
    · simp only [h, if_false, List.mem_cons]
      rw [cut_true_iff sep cs]
      exact ⟨.inr, fun h' => h'.resolve_left (fun e => h e.symm)⟩

theorem hasFragment_iff (uri : GoStr) : HasFragment uri ↔ (AuthResponse.fragment uri).length ≠ 0 := by
  unfold HasFragment AuthResponse.fragment
  constructor
  · rintro ⟨base, f, rfl, hb, hf⟩
    rw [cut_append 35 f base hb]
    simpa using hf
  · intro h
    refine ⟨(cut 35 uri).1, (cut 35 uri).2.1, ?_, cut_fst_no_sep 35 uri, by simpa using h⟩
    have h1 := cut_fst_append_rest 35 uri
    cases hc : (cut 35 uri).2.2 with
    | true => rw [hc] at h1; simpa using h1.symm
    | false => exact absurd (by rw [cut_false_snd 35 uri hc]; rfl) h

theorem hasQuery_iff (uri : GoStr) : HasQuery uri ↔ (AuthResponse.rawQuery uri).length ≠ 0 := by
  unfold HasQuery AuthResponse.rawQuery
  constructor
  · rintro ⟨base, q, rest, rfl, hb1, hb2, hq, hne, hr⟩
    have hno : (35 : UInt8) ∉ base ++ 63 :: q := by simp [hb2, hq]
    have : (cut 35 (base ++ 63 :: (q ++ rest))).1 = base ++ 63 :: q := by
      rcases hr with rfl | ⟨f, rfl⟩
      · rw [List.append_nil, cut_none 35 _ hno]
      · rw [show base ++ 63 :: (q ++ 35 :: f) = (base ++ 63 :: q) ++ 35 :: f by simp, cut_append 35 f _ hno]
    rw [this, cut_append 63 q base hb1]
    simpa using hne
  · intro h
    have h1 := cut_fst_append_rest 35 uri
    have h2 := cut_fst_append_rest 63 (cut 35 uri).1
    have hn := cut_fst_no_sep 35 uri
    cases hc : (cut 63 (cut 35 uri).1).2.2 with
    | false => exact absurd (by rw [cut_false_snd 63 _ hc]; rfl) h
    | true =>
      rw [hc] at h2
      simp only [if_true] at h2
      refine ⟨(cut 63 (cut 35 uri).1).1, (cut 63 (cut 35 uri).1).2.1,
        if (cut 35 uri).2.2 then 35 :: (cut 35 uri).2.1 else [], ?_, cut_fst_no_sep 63 _, ?_, ?_,
        by simpa using h, ?_⟩
      · have h3 : (cut 63 (cut 35 uri).1).1 ++ 63 :: ((cut 63 (cut 35 uri).1).2.1 ++
            (if (cut 35 uri).2.2 then 35 :: (cut 35 uri).2.1 else [])) =
            ((cut 63 (cut 35 uri).1).1 ++ 63 :: (cut 63 (cut 35 uri).1).2.1) ++
            (if (cut 35 uri).2.2 then 35 :: (cut 35 uri).2.1 else []) := by simp
        rw [h3, h2, h1]
      · intro hm; apply hn; rw [← h2]; simp [hm]
      · intro hm; apply hn; rw [← h2]; simp [hm]
      · cases (cut 35 uri).2.2 <;> simp

theorem encodes_valuesEncode (ps : Params) : Encodes (valuesEncode ps) ps := by
  refine ⟨by rw [parseQuery_valuesEncode]; exact sortPairs_perm ps, fun c hc => ?_⟩
  have key : ∀ c : UInt8, isEscaped c = true ∨ c = 61 ∨ c = 38 →
      isUnreserved c = true ∨ c = 37 ∨ c = 43 ∨ c = 61 ∨ c = 38 := by
    apply forall_byte; decide +kernel
  exact key c (valuesEncode_mem ps c hc)

theorem redirectsTo_redirectResp (r : Req) (u : GoStr) : RedirectsTo (AuthResponse.redirectResp r u) u := by
  refine ⟨rfl, ?_, ?_⟩
  · unfold AuthResponse.redirectResp
    by_cases h : r.method = b!"GET" ∨ r.method = b!"HEAD"
    · simp only [h, if_true]; rw [List.filter_cons_of_pos (by rfl)]; rfl
    · simp only [h, if_false]; rw [List.filter_cons_of_pos (by rfl)]; rfl
  · unfold AuthResponse.redirectResp
    by_cases h : r.method = b!"GET"
    · simp only [h, if_true]; exact .inr trivial
    · simp only [h, if_false]; exact .inl trivial

theorem postsTo_formResp (uri : GoStr) (l : Params) :
    PostsTo (AuthResponse.formResp (AuthResponse.formDoc uri l)) uri l := by
  refine ⟨rfl, List.mem_cons_of_mem _ (List.mem_cons_self ..), ?_, ?_⟩
  · show ∀ kv ∈ [(b!"Content-Type", b!"text/html; charset=UTF-8"),
      (b!"Cache-Control", b!"no-cache, no-store"), (b!"Pragma", b!"no-cache")], kv.1 ≠ b!"Location"
    decide +kernel
  show AuthResponse.formDoc uri l = _
  unfold AuthResponse.formDoc AuthResponse.inputTag
  simp only [List.append_assoc]
  rfl

/-- The trace of sending one response: nothing but the write, or an iteration over the parameters and
the write. -/
def SentTrace (t : List Event) (resp : HttpResp) : Prop :=
  t = [wrote resp] ∨ ∃ m l, t = [⟨.mapRange m, l⟩, wrote resp]

theorem redirectTo_runs {lib : Lib} {r : Req} {ty : AuthResponse.ParamType} {uri : GoStr} {params : Params}
    {t : List Event} {o : Outcome Unit} (h : Runs (AuthResponse.redirectTo lib r ty uri params) t o) :
    (o = .panic ∧ t = [] ∧ lib.urlParseOk uri = false) ∨
    (o = .ok () ∧ lib.urlParseOk uri = true ∧ ∃ c, t = [wrote (AuthResponse.redirectResp r
        (uri ++ c :: valuesEncode params))] ∧
      match ty with
      | .query => (HasQuery uri ∧ c = 38 ∨ ¬ HasQuery uri ∧ c = 63)
      | .fragment => (HasFragment uri ∧ c = 38 ∨ ¬ HasFragment uri ∧ c = 35)) := by
  unfold AuthResponse.redirectTo AuthResponse.connector at h
  cases hu : lib.urlParseOk uri with
  | false =>
    rw [hu, if_pos rfl] at h
    exact .inl ⟨h.2, h.1, rfl⟩
  | true =>
    rw [hu, if_neg (by simp)] at h
    cases ty with
    | query =>
      obtain ⟨x, ht, ho⟩ := runs_ask.1 h
      refine .inr ⟨ho, rfl, if (AuthResponse.rawQuery uri).length = 0 then 63 else 38, ?_, ?_⟩
      · rw [ht]
        by_cases hc : (AuthResponse.rawQuery uri).length = 0 <;> simp [hc]
      · dsimp only
        rw [hasQuery_iff]
        by_cases hc : (AuthResponse.rawQuery uri).length = 0 <;> simp [hc]
    | fragment =>
      obtain ⟨x, ht, ho⟩ := runs_ask.1 h
      refine .inr ⟨ho, rfl, if (AuthResponse.fragment uri).length = 0 then 35 else 38, ?_, ?_⟩
      · rw [ht]
        by_cases hc : (AuthResponse.fragment uri).length = 0 <;> simp [hc]
      · dsimp only
        rw [hasFragment_iff]
        by_cases hc : (AuthResponse.fragment uri).length = 0 <;> simp [hc]

/-- Sending parameters: it panics when the URI does not parse (query and fragment), and otherwise
writes one response that delivers them. -/
theorem success_runs {lib : Lib} {r : Req} {mode uri : GoStr} {params : Params}
    {t : List Event} {o : Outcome Unit} (h : Runs (AuthResponse.success lib r mode uri params) t o) :
    (o = .panic ∧ t = [] ∧ lib.urlParseOk uri = false ∧ channel mode ≠ .form) ∨
    (o = .ok () ∧ (lib.urlParseOk uri = true ∨ channel mode = .form) ∧
      ∃ resp, SentTrace t resp ∧ Delivers resp uri params (channel mode)) := by
  unfold AuthResponse.success at h
  have hq : ∀ {t o}, channel mode = .query → Runs (AuthResponse.redirectTo lib r .query uri params) t o →
    (o = .panic ∧ t = [] ∧ lib.urlParseOk uri = false ∧ channel mode ≠ .form) ∨
    (o = .ok () ∧ (lib.urlParseOk uri = true ∨ channel mode = .form) ∧
      ∃ resp, SentTrace t resp ∧ Delivers resp uri params (channel mode)) := by
    intro t o hm h
    rcases redirectTo_runs h with ⟨h1, h2, h3⟩ | ⟨h1, h2, c, h3, h4⟩
    · exact .inl ⟨h1, h2, h3, by rw [hm]; simp⟩
    · refine .inr ⟨h1, .inl h2, _, .inl h3, ?_⟩
      rw [hm]
      exact ⟨c, _, encodes_valuesEncode params, redirectsTo_redirectResp _ _, h4⟩
  by_cases h1 : mode = b!"query"
  · rw [if_pos h1] at h
    exact hq (by rw [h1]; decide +kernel) h
  · rw [if_neg h1] at h
    by_cases h2 : mode = b!"fragment"
    · rw [if_pos h2] at h
      have hm : channel mode = .fragment := by rw [h2]; decide +kernel
      rcases redirectTo_runs h with ⟨h1, h2, h3⟩ | ⟨h1, h2, c, h3, h4⟩
      · exact .inl ⟨h1, h2, h3, by rw [hm]; simp⟩
      · refine .inr ⟨h1, .inl h2, _, .inl h3, ?_⟩
        rw [hm]
        exact ⟨c, _, encodes_valuesEncode params, redirectsTo_redirectResp _ _, h4⟩
    · rw [if_neg h2] at h
      by_cases h3 : mode = b!"form_post"
      · rw [if_pos h3] at h
        have hm : channel mode = .form := by rw [h3]; decide +kernel
        unfold AuthResponse.render at h
        replace h := runs_bind_ask.1 h
        obtain ⟨l, t1, rfl, h⟩ := h
        replace h := runs_ask.1 h
        obtain ⟨x, rfl, rfl⟩ := h
        refine .inr ⟨rfl, .inr hm, _, .inr ⟨_, _, rfl⟩, ?_⟩
        rw [hm]
        exact ⟨l.1, l.2, postsTo_formResp _ _⟩
      · rw [if_neg h3] at h
        exact hq (by unfold channel; rw [if_neg h2, if_neg h3]) h

theorem errorParams_eq (typ desc state : GoStr) :
    AuthResponse.errorParams typ desc state = errorResponse typ desc state := by
  unfold AuthResponse.errorParams errorResponse
  simp

theorem sentTrace_last {t resp} (h : SentTrace t resp) : ∃ pre, t = pre ++ [wrote resp] ∧ NoWrite pre ∧
    ∀ e ∈ pre, ∃ m l, e = ⟨.mapRange m, l⟩ := by
  rcases h with rfl | ⟨m, l, rfl⟩
  · exact ⟨[], rfl, noWrite_nil, by simp⟩
  · refine ⟨[⟨.mapRange m, l⟩], rfl, noWrite_cons.2 ⟨rfl, noWrite_nil⟩, ?_⟩
    intro e he
    exact ⟨m, l, by simpa using he⟩

/-- The parameters can always be sent when the URI parses. -/
theorem success_can {lib : Lib} {r : Req} {mode uri : GoStr} {params : Params}
    (hu : lib.urlParseOk uri = true) : ∃ t, Runs (AuthResponse.success lib r mode uri params) t (.ok ()) := by
  obtain ⟨t, o, h⟩ := steps_complete (steps_nil (p := AuthResponse.success lib r mode uri params))
  rcases success_runs h with ⟨_, _, h', _⟩ | ⟨rfl, _⟩
  · rw [hu] at h'; cases h'
  · exact ⟨_, h⟩

end Goidc
