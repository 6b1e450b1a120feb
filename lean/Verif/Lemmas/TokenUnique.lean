import Verif.Lemmas.TokenReply

/-! # The decision table of the token endpoint is unambiguous -/

namespace Goidc

open Spec Props TokenEndpoint

variable {α β : Type} {cfg : TokenCfg} {lib : Lib} {r : Req} {c : Client}

/-- The results of two tables agree. -/
def TAgree (E : α → α → Prop) : α ⊕ Reply → α ⊕ Reply → Prop
  | .inl a, .inl b => E a b
  | .inr e, .inr e' => e.Alike e'
  | _, _ => False

/-- Two runs of a table have the same calls and the same result, or some call was answered differently. -/
def TJoint (R : Table α) (R' : Table α) (E : α → α → Prop) : Prop :=
  ∀ c c' x y, R c x → R' c' y → (c = c' ∧ TAgree E x y) ∨ Fork c c'

theorem reply_alike_refl (e : Reply) : e.Alike e := by
  cases e <;> simp [Reply.Alike]

theorem tjoint_bind {R R' : Table α} {E : α → α → Prop} {S S' : α → Table β} {F : β → β → Prop}
    (h : TJoint R R' E) (hs : ∀ a b, E a b → TJoint (S a) (S' b) F) : TJoint (R >>= S) (R' >>= S') F := by
  intro c c' x y hx hy
  rcases hx with ⟨e, rfl, hx⟩ | ⟨c1, c2, a, rfl, h1, h2⟩
  · rcases hy with ⟨e', rfl, hy⟩ | ⟨c1', c2', a', rfl, h1', h2'⟩
    · exact h c c' _ _ hx hy
    · rcases h c c1' _ _ hx h1' with h | h
      · exact h.2.elim
      · exact .inr (fork_append_right h)
  · rcases hy with ⟨e', rfl, hy⟩ | ⟨c1', c2', a', rfl, h1', h2'⟩
    · rcases h c1 c' _ _ h1 hy with h | h
      · exact h.2.elim
      · exact .inr (fork_append_left h)
    · rcases h c1 c1' _ _ h1 h1' with ⟨rfl, h4⟩ | h
      · rcases hs a a' h4 c2 c2' x y h2 h2' with ⟨rfl, h6⟩ | h
        · exact .inl ⟨rfl, h6⟩
        · exact .inr (fork_prepend h)
      · exact .inr (fork_append h)

/-- A table that determines its result. -/
def Single (R : Table α) : Prop := TJoint R R Eq

theorem tjoint_then {R : Table α} {S : α → Table β} {F : β → β → Prop} (h : Single R)
    (hs : ∀ a, TJoint (S a) (S a) F) : TJoint (R >>= S) (R >>= S) F :=
  tjoint_bind h fun a _ e => by subst e; exact hs a

theorem tjoint_pure {a b : α} {E : α → α → Prop} (h : E a b) : TJoint (pure a) (pure b) E := by
  rintro c c' x y ⟨rfl, rfl⟩ ⟨rfl, rfl⟩
  exact .inl ⟨rfl, h⟩

theorem single_pure {a : α} : Single (pure a) := tjoint_pure rfl

theorem single_endIf {p : Prop} {e : Reply} : Single (endIf p e) := by
  rintro c c' x y ⟨rfl, hx⟩ ⟨rfl, hy⟩
  refine .inl ⟨rfl, ?_⟩
  rcases hx with ⟨h, rfl⟩ | ⟨h, rfl⟩ <;> rcases hy with ⟨h', rfl⟩ | ⟨h', rfl⟩
  · exact reply_alike_refl e
  · exact absurd h h'
  · exact absurd h' h
  · rfl

theorem single_find {P : α → Prop} {e : Reply} (hu : ∀ a b, P a → P b → a = b) : Single (find P e) := by
  rintro c c' x y ⟨rfl, hx⟩ ⟨rfl, hy⟩
  refine .inl ⟨rfl, ?_⟩
  rcases hx with ⟨a, h, rfl⟩ | ⟨h, rfl⟩ <;> rcases hy with ⟨b, h', rfl⟩ | ⟨h', rfl⟩
  · exact hu a b h h'
  · exact absurd h (h' a)
  · exact absurd h' (h b)
  · exact reply_alike_refl e

theorem single_findEq {o : Option α} {e : Reply} : Single (find (fun a => o = some a) e) :=
  single_find fun a b h h' => by rw [h] at h'; exact Option.some.inj h'

theorem single_observe {q : Query} : Single (observe q) := by
  rintro c c' x y ⟨v, rfl, rfl⟩ ⟨w, rfl, rfl⟩
  by_cases h : v = w
  · subst h; exact .inl ⟨rfl, rfl⟩
  · exact .inr (.inl ⟨rfl, by simpa using h⟩)

theorem single_obtain {q : Query} {value : q.Resp → Option α × Option ErrType} {e : Reply} : Single (Obtain q value e) := by
  have key : ∀ {v w : q.Resp}, (v = w → False) → Fork [(⟨q, v⟩ : Event)] [⟨q, w⟩] :=
    fun h => .inl ⟨rfl, by simpa using h⟩
  intro c c' x y hx hy
  rcases hx with @⟨v, _, hv⟩ | @⟨v, _, _, hv, hn⟩ | @⟨v, hv⟩ | @⟨v, _, hv⟩ <;>
    rcases hy with @⟨w, _, hw⟩ | @⟨w, _, _, hw, hn'⟩ | @⟨w, hw⟩ | @⟨w, _, hw⟩ <;>
    by_cases h : v = w
  all_goals first
    | exact .inr (key h)
    | (subst h; rw [hv] at hw; simp at hw; done)
    | (subst h; rw [hv] at hw; simp at hw; exact absurd hw.2.symm hn')
    | (subst h; rw [hv] at hw; simp at hw; exact absurd hw.2 hn)
    | (subst h; rw [hv] at hw; simp at hw; subst hw; exact .inl ⟨rfl, rfl⟩)
    | (subst h; exact .inl ⟨rfl, (show Reply.Alike _ _ from reply_alike_refl (.refused .serverError []))⟩)
    | (subst h; exact .inl ⟨rfl, reply_alike_refl _⟩)

theorem single_reply {e : Reply} : Single (reply e) := by
  rintro c c' x y ⟨rfl, rfl⟩ ⟨rfl, rfl⟩
  exact .inl ⟨rfl, reply_alike_refl e⟩

theorem numberClaim_unique {tk : JwtToken} {k : GoStr} {m n : Int64} (h : NumberClaim tk k m) (h' : NumberClaim tk k n) : m = n := by
  have h := numClaim_some.2 h
  have h' := numClaim_some.2 h'
  rw [h] at h'
  exact Option.some.inj h'

theorem single_assertionOf {a : GoStr} {tk : JwtToken} : Single (assertionOf lib c a tk) := by
  unfold assertionOf
  refine tjoint_then single_findEq fun _ => tjoint_then single_observe fun _ => tjoint_then single_endIf fun _ =>
    tjoint_then single_endIf fun _ => tjoint_then single_endIf fun _ => tjoint_then single_endIf fun _ =>
    tjoint_then (single_find fun _ _ => numberClaim_unique) fun _ => tjoint_then (single_find ?_) fun _ =>
    tjoint_then (single_find ?_) fun _ => tjoint_then single_obtain fun _ =>
    tjoint_then single_findEq fun _ => tjoint_then single_observe fun _ => tjoint_then single_endIf fun _ => single_endIf
  · rintro m n (h | ⟨h, rfl⟩) (h' | ⟨h', rfl⟩)
    · exact numberClaim_unique h h'
    · exact absurd h (h' m)
    · exact absurd h' (h n)
    · rfl
  · rintro m n (h | ⟨h, rfl⟩) (h' | ⟨h', rfl⟩)
    · rw [h] at h'; exact Option.some.inj h'
    · rw [h] at h'; cases h'
    · rw [h] at h'; cases h'
    · rfl

theorem credential_unique {a b : Credential} (h : CarriesCredential cfg r a) (h' : CarriesCredential cfg r b) : a = b := by
  cases a with
  | secret cid sec i =>
    cases b with
    | secret cid' sec' i' =>
      have h := findClientCredential_iff.2 h
      have h' := findClientCredential_iff.2 h'
      rw [h] at h'
      cases h'
      rfl
    | assertion b => exact absurd h (h'.1 _ _ _)
  | assertion a =>
    cases b with
    | secret cid' sec' i' => exact absurd h' (h.1 _ _ _)
    | assertion b =>
      have h := findClientAssertion_iff.2 h.2.2
      have h' := findClientAssertion_iff.2 h'.2.2
      rw [h] at h'
      cases h'
      rfl

theorem single_clientOf : Single (clientOf cfg lib r) := by
  unfold clientOf
  refine tjoint_then (single_find fun _ _ => credential_unique) fun cr => ?_
  cases cr with
  | secret cid sec b =>
    exact tjoint_then single_obtain fun _ => tjoint_then single_endIf fun _ => tjoint_then single_endIf fun _ => single_pure
  | assertion a =>
    exact tjoint_then single_findEq fun _ => tjoint_then single_endIf fun _ => tjoint_then single_findEq fun _ =>
      tjoint_then single_obtain fun _ => tjoint_then single_assertionOf fun _ => single_pure

/-- The same yield, up to the value of the ID token. -/
def YieldAlike (a b : Yield) : Prop := a.1 = b.1 ∧ a.2.1 = b.2.1

theorem tjoint_codeIdToken {info sess now} :
    TJoint (codeIdToken lib c info sess now) (codeIdToken lib c info sess now) (fun _ _ => True) := by
  intro c1 c2 x y hx hy
  rcases hx with ⟨h, rfl, rfl⟩ | ⟨h, iss, rfl, hx⟩ <;> rcases hy with ⟨h', rfl, rfl⟩ | ⟨h', iss', rfl, hy⟩
  · exact .inl ⟨rfl, trivial⟩
  · exact absurd h' h
  · exact absurd h h'
  · by_cases hi : iss = iss'
    · subst hi
      refine .inl ⟨rfl, ?_⟩
      rcases hx with ⟨k, rfl⟩ | ⟨k, _, _, rfl, -⟩ <;> rcases hy with ⟨k', rfl⟩ | ⟨k', _, _, rfl, -⟩
      · exact (show Reply.Alike _ _ from reply_alike_refl (.refused .serverError []))
      · exact absurd k' k
      · exact absurd k k'
      · trivial
    · exact .inr (.inl ⟨rfl, by simpa using hi⟩)

theorem tjoint_newToken {user : Int64} : TJoint (newToken r c user) (newToken r c user) YieldAlike :=
  tjoint_then single_obtain fun _ => tjoint_then single_obtain fun _ => tjoint_pure ⟨rfl, rfl⟩

theorem tjoint_grant {now : Int64} (kind : GrantKind) :
    TJoint (grantTable lib r c now kind) (grantTable lib r c now kind) YieldAlike := by
  cases kind
  · unfold grantTable codeGrant
    dsimp only
    refine tjoint_then single_endIf fun _ => tjoint_then single_endIf fun _ => tjoint_then single_obtain fun _ =>
      tjoint_then single_obtain fun _ => tjoint_then single_endIf fun _ => tjoint_then single_endIf fun _ =>
      tjoint_then single_endIf fun _ => tjoint_then single_endIf fun _ => tjoint_then single_endIf fun _ =>
      tjoint_then single_endIf fun _ => tjoint_then single_obtain fun _ => tjoint_then single_obtain fun _ =>
      tjoint_bind tjoint_codeIdToken fun _ _ _ => tjoint_pure ⟨rfl, rfl⟩
  · exact tjoint_then single_endIf fun _ => tjoint_then single_obtain fun _ => tjoint_then single_endIf fun _ =>
      tjoint_then single_obtain fun _ => tjoint_then single_endIf fun _ => tjoint_then single_endIf fun _ =>
      tjoint_then single_obtain fun _ => tjoint_pure ⟨rfl, rfl⟩
  · exact tjoint_then single_endIf fun _ => tjoint_then single_endIf fun _ => tjoint_then single_endIf fun _ =>
      tjoint_then single_obtain fun _ => tjoint_newToken
  · exact tjoint_then single_endIf fun _ => tjoint_then single_endIf fun _ => tjoint_newToken
  · exact tjoint_then single_endIf fun _ => tjoint_then single_findEq fun _ => tjoint_then single_endIf fun _ =>
      tjoint_then single_assertionOf fun _ => tjoint_then single_findEq fun _ =>
      tjoint_then single_obtain fun _ => tjoint_then single_endIf fun _ => tjoint_newToken

theorem single_tokenTable {kind : GrantKind} : Single (tokenTable cfg lib r kind) := by
  unfold tokenTable
  refine tjoint_then single_endIf fun _ => tjoint_then single_endIf fun _ => tjoint_then single_endIf fun _ =>
    tjoint_then single_clientOf fun c => tjoint_then single_observe fun now => tjoint_bind (tjoint_grant kind) ?_
  rintro ⟨a, b, d⟩ ⟨a', b', d'⟩ ⟨h1, h2⟩
  cases h1
  cases h2
  rintro _ _ _ _ ⟨rfl, rfl⟩ ⟨rfl, rfl⟩
  exact .inl ⟨rfl, rfl, rfl⟩

theorem replies_fork {S : HttpResp → Reply → Prop} {t calls c' : List Event} {o e} (h : RepliesBy S t o calls e) (hf : Fork calls c') :
    Fork (interactions t) c' := by
  rcases h with ⟨resp, h, -⟩ | ⟨-, h, -⟩
  · rw [h]; exact fork_append_left hf
  · rw [h]; exact hf

theorem table_got {q : Query} {value : q.Resp → Option α × Option ErrType} {e : Reply} {a : α} {x : q.Resp} {S : α → Table β}
    {c' res} (hv : value x = (some a, none)) (h : S a c' res) : (Obtain q value e >>= S) (⟨q, x⟩ :: c') res :=
  table_next (c := [⟨q, x⟩]) (.value hv) h

theorem table_goOn {p : Prop} {e : Reply} {S : Unit → Table β} {c' res} (hp : ¬ p) (h : S () c' res) :
    (endIf p e >>= S) c' res := table_next (c := []) (endIf_neg hp) h

end Goidc
