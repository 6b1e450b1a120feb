import Verif.Spec.Html
import Verif.Spec.FrontChannel
import Verif.Lemmas.Escape

/-! # Reading the form_post page -/

namespace Goidc

open Spec

theorem readHtml_append (m : HtmlMode) (a b : List UInt8) :
    readHtml m (a ++ b) = ((readHtml m a).1 ++ (readHtml (readHtml m a).2 b).1, (readHtml (readHtml m a).2 b).2) := by
  induction a generalizing m with
  | nil => simp [readHtml]
  | cons c a ih =>
    rw [List.cons_append]
    simp only [readHtml]
    rw [ih]
    simp

theorem readHtml_quoted {t as n} {s v : List UInt8} (h : 34 ∉ s) :
    readHtml (.quoted 34 t as n v) s = ([], .quoted 34 t as n (v ++ s)) := by
  induction s generalizing v with
  | nil => simp [readHtml]
  | cons c s ih =>
    simp only [List.mem_cons, not_or] at h
    have hs : HtmlMode.step (.quoted 34 t as n v) c = ([], .quoted 34 t as n (v ++ [c])) := by
      simp only [HtmlMode.step]
      rw [if_neg (fun e => h.1 e.symm)]
    simp only [readHtml]
    rw [hs, ih h.2]
    simp

theorem readHtml_quote {t as n v s} :
    readHtml (.quoted 34 t as n v) (34 :: s) = readHtml (.beforeAttr t (as ++ [(n, unescape v)])) s := by
  simp [readHtml, HtmlMode.step]

/-- Browsers read an escaped value back. -/
theorem unescape_htmlEscape : ∀ s, unescape (htmlEscape s) = s
  | [] => by decide
  | c :: s => by
    have ih := unescape_htmlEscape s
    unfold htmlEscape at ih ⊢
    rw [List.flatMap_cons]
    by_cases h38 : c = 38
    · subst h38; simp [htmlEscapeByte, unescape, ih]
    by_cases h39 : c = 39
    · subst h39; simp [htmlEscapeByte, unescape, ih]
    by_cases h60 : c = 60
    · subst h60; simp [htmlEscapeByte, unescape, ih]
    by_cases h62 : c = 62
    · subst h62; simp [htmlEscapeByte, unescape, ih]
    by_cases h34 : c = 34
    · subst h34; simp [htmlEscapeByte, unescape, ih]
    · simp [htmlEscapeByte, h38, h39, h60, h62, h34]
      rw [unescape.eq_def]
      split <;> simp_all

/-- The tag a parameter becomes. -/
def inputToken (kv : GoStr × GoStr) : HtmlToken :=
  .start b!"input" [(b!"type", b!"hidden"), (b!"name", kv.1), (b!"value", kv.2)]

/-- The markup a parameter becomes. -/
def inputMarkup (kv : GoStr × GoStr) : GoStr :=
  b!"<input type=\"hidden\" name=\"" ++ kv.1 ++ b!"\" value=\"" ++ htmlEscape kv.2 ++ b!"\" />"

theorem readHtml_input {kv : GoStr × GoStr} (h : 34 ∉ kv.1) (hu : unescape kv.1 = kv.1) :
    readHtml .data (inputMarkup kv) = ([inputToken kv], .data) := by
  unfold inputMarkup
  have h1 : readHtml .data b!"<input type=\"hidden\" name=\"" =
    ([], .quoted 34 b!"input" [(b!"type", b!"hidden")] b!"name" []) := by decide +kernel
  have h2 : ∀ v, readHtml (.quoted 34 b!"input" [(b!"type", b!"hidden")] b!"name" v) b!"\" value=\"" =
    ([], .quoted 34 b!"input" [(b!"type", b!"hidden"), (b!"name", unescape v)] b!"value" []) := by
    intro v
    rw [show b!"\" value=\"" = 34 :: b!" value=\"" by decide, readHtml_quote]
    simp [readHtml, HtmlMode.step]
  have h3 : ∀ as v, readHtml (.quoted 34 b!"input" as b!"value" v) b!"\" />" =
    ([.start b!"input" (as ++ [(b!"value", unescape v)])], .data) := by
    intro as v
    rw [show b!"\" />" = 34 :: b!" />" by decide, readHtml_quote]
    simp [readHtml, HtmlMode.step]
  have h34 : 34 ∉ htmlEscape kv.2 := fun hm => (htmlEscape_mem _ _ hm).1 rfl
  simp only [readHtml_append, h1, readHtml_quoted h, List.nil_append, h2, readHtml_quoted h34, h3, hu,
    unescape_htmlEscape]
  rfl

/-- Names that need no escaping. -/
def PlainNames (l : Params) : Prop := ∀ kv ∈ l, 34 ∉ kv.1 ∧ unescape kv.1 = kv.1

theorem readHtml_inputs {l : Params} (h : PlainNames l) :
    readHtml .data (l.flatMap inputMarkup) = (l.map inputToken, .data) := by
  induction l with
  | nil => simp [readHtml]
  | cons kv l ih =>
    have hk := h kv (by simp)
    rw [List.flatMap_cons, readHtml_append, readHtml_input hk.1 hk.2, ih fun x hx => h x (by simp [hx])]
    rfl

theorem page_tokens {resp : HttpResp} {uri : GoStr} {l : Params} (h : PostsTo resp uri l) (hn : PlainNames l)
    (hq : 34 ∉ uri) (hu : unescape uri = uri) : htmlTokens resp.body = some (submitPage uri l) := by
  have hb := h.2.2.2
  have h1 : readHtml .data b!"<html><head><title>Submit This Form</title></head><body onload=\"javascript:document.forms[0].submit()\"><form method=\"post\" action=\"" =
    ([.start b!"html" [], .start b!"head" [], .start b!"title" []] ++ b!"Submit This Form".map .text ++
      [.close b!"title", .close b!"head", .start b!"body" [(b!"onload", b!"javascript:document.forms[0].submit()")]],
      .quoted 34 b!"form" [(b!"method", b!"post")] b!"action" []) := by decide +kernel
  have h2 : ∀ as v, readHtml (.quoted 34 b!"form" as b!"action" v) b!"\">" =
    ([.start b!"form" (as ++ [(b!"action", unescape v)])], .data) := by
    intro as v
    rw [show b!"\">" = [34, 62] by decide, readHtml_quote]
    simp [readHtml, HtmlMode.step]
  have h3 : readHtml .data b!"</form></body></html>" =
    ([.close b!"form", .close b!"body", .close b!"html"], .data) := by decide +kernel
  have hi := readHtml_inputs hn
  unfold inputMarkup at hi
  unfold htmlTokens
  rw [hb]
  simp only [readHtml_append, h1, readHtml_quoted hq, List.nil_append, h2, hi, h3, hu]
  unfold submitPage
  simp [inputToken]

end Goidc
