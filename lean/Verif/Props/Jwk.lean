import Verif.Spec.Jwk
import Verif.Lemmas.Utf8

/-! # C57, C91: the JWK endpoint and the key loaders -/

namespace Goidc.Props

open Spec Jwk

variable {x : JwxLib}

/-- C91: a public key is loaded from PEM data exactly when its first block is a `PUBLIC KEY` block with an RSA
key, and it is that key. -/
theorem C91_public (data : GoStr) (k : x.Key) : x.loadPublicKeyFromData data = .ok k ↔ PublicKeyPem x data k := by
  unfold JwxLib.loadPublicKeyFromData PublicKeyPem
  cases h1 : x.pemDecode data with
  | none => simp
  | some y =>
    obtain ⟨typ, bytes⟩ := y
    by_cases h2 : typ = b!"PUBLIC KEY"
    · subst h2
      cases h3 : x.parsePKIX bytes with
      | error e => simp [h3]
      | ok o => cases o <;> simp [h3]
    · simp [h2]

/-- C91: a private key is loaded from PEM data exactly when its first block is an `RSA PRIVATE KEY` block with a
key, and it is that key. -/
theorem C91_private (data : GoStr) (k : x.PrivKey) : x.loadPrivateKeyFromData data = .ok k ↔ PrivateKeyPem x data k := by
  unfold JwxLib.loadPrivateKeyFromData PrivateKeyPem
  cases h1 : x.pemDecode data with
  | none => simp
  | some y =>
    obtain ⟨typ, bytes⟩ := y
    by_cases h2 : typ = b!"RSA PRIVATE KEY"
    · subst h2
      cases h3 : x.parsePKCS1 bytes <;> simp [h3]
    · simp [h2]

/-- C91: no data is accepted both as a public and as a private key. -/
theorem C91_exclusive (data : GoStr) (k : x.Key) (p : x.PrivKey) :
    ¬ (x.loadPublicKeyFromData data = .ok k ∧ x.loadPrivateKeyFromData data = .ok p) := by
  rintro ⟨h1, h2⟩
  obtain ⟨b1, h1, _⟩ := (C91_public _ _).1 h1
  obtain ⟨b2, h2, _⟩ := (C91_private _ _).1 h2
  rw [h1] at h2
  simp at h2

/-- C91: it does not matter whether the data comes as bytes, as text or from a file; a file that cannot be read
gives no key. -/
theorem C91_sources (data err : GoStr) :
    x.loadPublicKeyFromText data = x.loadPublicKeyFromData data ∧
    x.loadPublicKeyFromFile (.ok data) = x.loadPublicKeyFromData data ∧
    x.loadPrivateKeyFromText data = x.loadPrivateKeyFromData data ∧
    x.loadPrivateKeyFromFile (.ok data) = x.loadPrivateKeyFromData data ∧
    (∀ k, x.loadPublicKeyFromFile (.error err) ≠ .ok k) ∧ (∀ k, x.loadPrivateKeyFromFile (.error err) ≠ .ok k) :=
  ⟨rfl, rfl, rfl, rfl, (fun _ h => by cases h), (fun _ h => by cases h)⟩

/-- C91: a key is loaded from a JWK set exactly when the first key with that id is an RSA public key, and it is
that key. -/
theorem C91_jwk (doc kid : GoStr) (k : x.Key) : loadPublicKeyFromJWK x doc kid = .ok k ↔ KeyOfSet x doc kid k := by
  unfold loadPublicKeyFromJWK KeyOfSet
  cases h1 : x.parseSet doc with
  | error e => simp
  | ok l =>
    simp only [Except.ok.injEq]
    clear h1
    induction l with
    | nil => simp
    | cons b l ih =>
      obtain ⟨c, o⟩ := b
      by_cases hb : c = kid
      · subst hb
        rw [List.filter_cons_of_pos (by simp)]
        cases o with
        | none =>
          simp only [reduceCtorEq, false_iff, not_exists]
          rintro before after ⟨he, hn⟩
          cases before with
          | nil => simp at he
          | cons y ys =>
            simp only [List.cons_append, List.cons.injEq] at he
            exact hn y (by simp) (by rw [← he.1])
        | some k' =>
          simp only [Except.ok.injEq]
          constructor
          · rintro rfl; exact ⟨[], l, rfl, by simp⟩
          · rintro ⟨before, after, he, hn⟩
            cases before with
            | nil => simp at he; exact he.1
            | cons y ys =>
              simp only [List.cons_append, List.cons.injEq] at he
              exact absurd (by rw [← he.1]) (hn y (by simp))
      · rw [List.filter_cons_of_neg (by simpa using hb), ih]
        constructor
        · rintro ⟨before, after, rfl, hn⟩
          exact ⟨(c, o) :: before, after, rfl, by
            intro kv hk; rcases List.mem_cons.1 hk with rfl | hk
            · exact hb
            · exact hn kv hk⟩
        · rintro ⟨before, after, he, hn⟩
          cases before with
          | nil => simp at he; exact absurd he.1.1 hb
          | cons y ys =>
            simp only [List.cons_append, List.cons.injEq] at he
            exact ⟨ys, after, he.2, fun kv hk => hn kv (List.mem_cons_of_mem _ hk)⟩

theorem toOption_load (pem : GoStr) : (x.loadPublicKeyFromData pem).toOption = keyIn x pem := by
  unfold JwxLib.loadPublicKeyFromData keyIn
  cases h1 : x.pemDecode pem with
  | none => rfl
  | some y =>
    obtain ⟨typ, bytes⟩ := y
    by_cases h2 : typ = b!"PUBLIC KEY"
    · subst h2
      cases h3 : x.parsePKIX bytes with
      | error e => simp [h3, Except.toOption]
      | ok o => cases o <;> simp [h3, Except.toOption]
    · simp [h2, Except.toOption]

theorem load_some {pem : GoStr} {k : x.Key} (h : keyIn x pem = some k) : x.loadPublicKeyFromData pem = .ok k := by
  rw [← toOption_load] at h
  cases hl : x.loadPublicKeyFromData pem with
  | ok k' => rw [hl] at h; cases h; rfl
  | error e => rw [hl] at h; cases h

theorem load_none {pem : GoStr} (h : keyIn x pem = none) : ∃ e, x.loadPublicKeyFromData pem = .error e := by
  rw [← toOption_load] at h
  cases hl : x.loadPublicKeyFromData pem with
  | ok k' => rw [hl] at h; cases h
  | error e => exact ⟨e, rfl⟩

/-- An added key, by what the text holds. -/
theorem add_text (s : State x) (kid pem : GoStr) : (step x s (.addText kid pem)).1 =
    (match keyIn x pem with | some k => { s with keys := Jwk.insert x s.keys kid k } | none => s) ∧
    (step x s (.addFile kid (.ok pem))) = step x s (.addText kid pem) := by
  refine ⟨?_, rfl⟩
  cases h : keyIn x pem with
  | some k => simp [step, JwxLib.loadPublicKeyFromText, load_some h, add]
  | none =>
    obtain ⟨e, he⟩ := load_none h
    simp [step, JwxLib.loadPublicKeyFromText, he, add]

/-- The key stored under an id. -/
def stored (m : List (GoStr × x.Key)) (kid : GoStr) : Option x.Key := (m.find? (fun kv => kv.1 == kid)).map (·.2)

/-- No id is stored twice. -/
def Distinct (m : List (GoStr × x.Key)) : Prop := m.Pairwise fun a b => a.1 ≠ b.1

theorem distinct_insert {m : List (GoStr × x.Key)} (h : Distinct m) (kid : GoStr) (k : x.Key) :
    Distinct (Jwk.insert x m kid k) := by
  refine List.pairwise_cons.2 ⟨fun b hb => ?_, h.filter _⟩
  have := (List.mem_filter.1 hb).2
  simp only [bne_iff_ne, ne_eq] at this
  exact Ne.symm this

theorem stored_insert (m : List (GoStr × x.Key)) (kid : GoStr) (k : x.Key) (kid' : GoStr) :
    stored (Jwk.insert x m kid k) kid' = if kid = kid' then some k else stored m kid' := by
  unfold stored Jwk.insert
  by_cases h : kid = kid'
  · rw [if_pos h, List.find?_cons_of_pos (by simpa using h)]; rfl
  · rw [if_neg h, List.find?_cons_of_neg (by simpa using h), List.find?_filter]
    congr 2
    funext kv
    by_cases hk : kv.1 = kid'
    · simp [hk, Ne.symm h]
    · simp [hk]

/-- What the map holds after a history: for every id the last key registered. -/
theorem run_keys : ∀ (ops : List (Op x)) (s : State x), Distinct s.keys →
    Distinct (run x s ops).keys ∧
    ∀ kid, stored (run x s ops).keys kid = (lastRegistered kid ops).or (stored s.keys kid) := by
  intro ops
  induction ops with
  | nil => intro s h; exact ⟨h, fun kid => rfl⟩
  | cons op ops ih =>
    intro s h
    have keep : ∀ s' : State x, (step x s op).1 = s' → s'.keys = s.keys → registers op = none →
        Distinct (run x s (op :: ops)).keys ∧
        ∀ kid, stored (run x s (op :: ops)).keys kid = (lastRegistered kid (op :: ops)).or (stored s.keys kid) := by
      intro s' h1 h2 h3
      have := ih s' (by rw [h2]; exact h)
      simp only [run, h1]
      refine ⟨this.1, fun kid => ?_⟩
      rw [this.2 kid, h2]
      simp [lastRegistered, h3]
    have put : ∀ kid k, (step x s op).1 = { s with keys := Jwk.insert x s.keys kid k } → registers op = some (kid, k) →
        Distinct (run x s (op :: ops)).keys ∧
        ∀ kid, stored (run x s (op :: ops)).keys kid = (lastRegistered kid (op :: ops)).or (stored s.keys kid) := by
      intro kid k h1 h2
      have := ih { s with keys := Jwk.insert x s.keys kid k } (distinct_insert h kid k)
      simp only [run, h1]
      refine ⟨this.1, fun kid' => ?_⟩
      rw [this.2 kid', stored_insert]
      simp only [lastRegistered, List.filterMap_cons, h2, List.reverse_cons, List.find?_append]
      cases (List.find? (fun kv => kv.1 == kid') (ops.filterMap registers).reverse) with
      | some kv => rfl
      | none =>
        by_cases hk : kid = kid' <;> simp [hk]
    cases op with
    | addText kid pem =>
      have hst := (add_text s kid pem).1
      cases hp : keyIn x pem with
      | none => rw [hp] at hst; exact keep s hst rfl (by simp [registers, hp])
      | some k => rw [hp] at hst; exact put kid k hst (by simp [registers, hp])
    | addFile kid content =>
      cases content with
      | error e => exact keep s rfl rfl rfl
      | ok pem =>
        have hst := (add_text s kid pem).1
        rw [← (add_text s kid pem).2] at hst
        cases hp : keyIn x pem with
        | none => rw [hp] at hst; exact keep s hst rfl (by simp [registers, hp])
        | some k => rw [hp] at hst; exact put kid k hst (by simp [registers, hp])
    | handler order => exact keep _ rfl rfl rfl
    | request i =>
      refine keep s ?_ rfl rfl
      simp only [step]
      split <;> rfl

theorem legal_append : ∀ (ops1 ops2 : List (Op x)) (s : State x),
    LegalRun x s (ops1 ++ ops2) ↔ LegalRun x s ops1 ∧ LegalRun x (run x s ops1) ops2 := by
  intro ops1
  induction ops1 with
  | nil => intro ops2 s; simp [LegalRun, run]
  | cons op ops ih => intro ops2 s; simp only [List.cons_append, LegalRun, run, ih, and_assoc]

theorem run_append : ∀ (ops1 ops2 : List (Op x)) (s : State x),
    run x s (ops1 ++ ops2) = run x (run x s ops1) ops2 := by
  intro ops1
  induction ops1 with
  | nil => intro ops2 s; rfl
  | cons op ops ih => intro ops2 s; exact ih _ _

/-- Handlers are only ever added. -/
theorem handlers_grow : ∀ (ops : List (Op x)) (s : State x),
    ∃ l, (run x s ops).handlers = s.handlers ++ l ∧ l.length = handlersMade ops := by
  intro ops
  induction ops with
  | nil => intro s; exact ⟨[], by simp [run], rfl⟩
  | cons op ops ih =>
    intro s
    obtain ⟨l, h1, h2⟩ := ih (step x s op).1
    have same : (step x s op).1.handlers = s.handlers → handlersMade (op :: ops) = handlersMade ops →
        ∃ l, (run x s (op :: ops)).handlers = s.handlers ++ l ∧ l.length = handlersMade (op :: ops) := by
      intro h3 h4
      exact ⟨l, by rw [run, h1, h3], by rw [h2, h4]⟩
    have hadd : ∀ kid o, (add x s kid o).1.handlers = s.handlers := by
      intro kid o; cases o <;> rfl
    cases op with
    | addText kid pem => exact same (hadd _ _) rfl
    | addFile kid content => exact same (hadd _ _) rfl
    | handler order =>
      refine ⟨(publicKeysJWK x order).getD [] :: l, ?_, by simp [handlersMade, h2]⟩
      rw [run, h1]
      simp [step]
    | request i =>
      refine same ?_ rfl
      simp only [step]
      split <;> rfl

theorem perm_find {m m' : List (GoStr × x.Key)} (hp : m'.Perm m) (h : Distinct m) (kid : GoStr) :
    m'.find? (fun kv => kv.1 == kid) = m.find? (fun kv => kv.1 == kid) := by
  have h' : Distinct m' := hp.symm.pairwise h (fun h => Ne.symm h)
  have uniq : ∀ {l : List (GoStr × x.Key)}, Distinct l → ∀ {a}, a ∈ l → a.1 = kid →
      l.find? (fun kv => kv.1 == kid) = some a := by
    intro l hl
    induction l with
    | nil => intro a ha; cases ha
    | cons b l ih =>
      intro a ha hk
      rcases List.mem_cons.1 ha with rfl | ha
      · exact List.find?_cons_of_pos (by simpa using hk)
      · have := (List.pairwise_cons.1 hl).1 a ha
        rw [List.find?_cons_of_neg (by rw [hk] at this; simpa using this)]
        exact ih (List.pairwise_cons.1 hl).2 ha hk
  cases hf : m.find? (fun kv => kv.1 == kid) with
  | some a =>
    have ha := List.mem_of_find?_eq_some hf
    have hk := List.find?_some hf
    exact uniq h' (hp.mem_iff.2 ha) (by simpa using hk)
  | none =>
    rw [List.find?_eq_none] at hf ⊢
    intro a ha
    exact hf a (hp.mem_iff.1 ha)

theorem load_eq {s : GoStr} {l : List (GoStr × x.Key)} (h : x.parseSet s = .ok (l.map fun kv => (kv.1, some kv.2))) (kid : GoStr) :
    (loadPublicKeyFromJWK x s kid).toOption = stored l kid := by
  unfold loadPublicKeyFromJWK stored
  rw [h]
  dsimp only
  clear h
  induction l with
  | nil => rfl
  | cons b l ih =>
    rw [List.map_cons]
    by_cases hb : (b.1 == kid) = true
    · rw [List.filter_cons, if_pos hb, List.find?_cons_of_pos (p := fun kv : GoStr × x.Key => kv.1 == kid) hb]; rfl
    · rw [List.filter_cons, if_neg hb, List.find?_cons_of_neg (p := fun kv : GoStr × x.Key => kv.1 == kid) hb]
      exact ih

theorem registered_valid {ops : List (Op x)} (hv : ∀ kv ∈ ops.filterMap registers, ValidUtf8 kv.1) {s : State x}
    (hs : ∀ kv ∈ s.keys, ValidUtf8 kv.1) : ∀ kv ∈ (run x s ops).keys, ValidUtf8 kv.1 := by
  induction ops generalizing s with
  | nil => exact hs
  | cons op ops ih =>
    have ins : ∀ kid k, registers op = some (kid, k) → ∀ kv ∈ Jwk.insert x s.keys kid k, ValidUtf8 kv.1 := by
      intro kid k hr kv hm
      rcases List.mem_cons.1 hm with rfl | hm
      · exact hv (kid, k) (List.mem_filterMap.2 ⟨op, List.mem_cons_self, hr⟩)
      · exact hs kv (List.mem_filter.1 hm).1
    refine ih (fun kv hm => hv kv ?_) ?_
    · obtain ⟨o, h1, h2⟩ := List.mem_filterMap.1 hm
      exact List.mem_filterMap.2 ⟨o, List.mem_cons_of_mem _ h1, h2⟩
    · cases op with
      | addText kid pem =>
        rw [(add_text s kid pem).1]
        cases hp : keyIn x pem with
        | none => exact hs
        | some k => exact ins kid k (by simp [registers, hp])
      | addFile kid content =>
        cases content with
        | error e => exact hs
        | ok pem =>
          rw [(add_text s kid pem).2, (add_text s kid pem).1]
          cases hp : keyIn x pem with
          | none => exact hs
          | some k => exact ins kid k (by simp [registers, hp])
      | handler order => exact hs
      | request i =>
        simp only [step]
        split <;> exact hs

/-- C57: whatever was registered before `Handler` was called and whatever happened since, the handler
answers 200 with a document in which `LoadPublicKeyFromJWK` finds, for every key id, exactly the last key
registered under it before `Handler` was called.  (`hm`: the library could write the set.) -/
theorem C57_served {ops1 ops2 : List (Op x)} {order : List (GoStr × x.Key)} {doc : GoStr}
    (hl : LegalRun x (init x) (ops1 ++ .handler order :: ops2)) (hm : publicKeysJWK x order = some doc)
    (hv : ∀ kv ∈ ops1.filterMap registers, ValidUtf8 kv.1) :
    (step x (run x (init x) (ops1 ++ .handler order :: ops2)) (.request (handlersMade ops1))).2 =
      .served ⟨200, [(b!"Content-Type", b!"application/json")], doc⟩ ∧
    ∀ kid, (loadPublicKeyFromJWK x doc kid).toOption = lastRegistered kid ops1 := by
  obtain ⟨_, hperm, _⟩ := (legal_append _ _ _).1 hl
  have hperm : order.Perm (run x (init x) ops1).keys := hperm
  obtain ⟨hd, hk⟩ := run_keys ops1 (init x) (by exact List.Pairwise.nil)
  constructor
  · rw [run_append]
    obtain ⟨l1, h1, h1'⟩ := handlers_grow ops1 (init x)
    obtain ⟨l2, h2, _⟩ := handlers_grow ops2 (step x (run x (init x) ops1) (.handler order)).1
    have e : (run x (run x (init x) ops1) (.handler order :: ops2)).handlers[handlersMade ops1]? = some doc := by
      rw [run, h2]
      have h1 : (run x (init x) ops1).handlers = l1 := h1
      simp only [step, hm, Option.getD_some, h1]
      rw [List.append_assoc, List.getElem?_append_right (by omega)]
      simp [h1']
    simp only [step, e]
  · intro kid
    have hp := x.parse_marshal order doc hm fun kv hm =>
      (validUtf8_iff _).2 (registered_valid hv (by simp [init]) kv (hperm.mem_iff.1 hm))
    rw [load_eq hp, stored, perm_find hperm hd, ← stored, hk kid]
    simp [init, stored]

/-- C57: registering a key that cannot be loaded panics and changes nothing. -/
theorem C57_bad_key (s : State x) (kid pem : GoStr) (h : ∀ k, ¬ PublicKeyPem x pem k) :
    step x s (.addText kid pem) = (s, .panicked) ∧ step x s (.addFile kid (.ok pem)) = (s, .panicked) ∧
    ∀ err, step x s (.addFile kid (.error err)) = (s, .panicked) := by
  have hn : keyIn x pem = none := by
    cases hk : keyIn x pem with
    | none => rfl
    | some k => exact absurd ((C91_public _ _).1 (load_some hk)) (h k)
  obtain ⟨e, he⟩ := load_none hn
  have h1 : step x s (.addText kid pem) = (s, .panicked) := by simp [step, JwxLib.loadPublicKeyFromText, he, add]
  exact ⟨h1, by rw [(add_text s kid pem).2, h1], fun err => rfl⟩

/-- C57: registering a key that can be loaded succeeds. -/
theorem C57_good_key (s : State x) (kid pem : GoStr) (k : x.Key) (h : PublicKeyPem x pem k) :
    (step x s (.addText kid pem)).2 = .done ∧ (step x s (.addFile kid (.ok pem))).2 = .done := by
  have := (C91_public _ _).2 h
  exact ⟨by simp [step, JwxLib.loadPublicKeyFromText, this, add], by simp [step, JwxLib.loadPublicKeyFromFile, this, add]⟩

/-! A concrete library: keys are strings, and sets are written character by character. -/

/-- One string, each character preceded by 1, closed by 0. -/
def encStr (s : GoStr) : GoStr := s.flatMap (fun c => [1, c]) ++ [0]

def encSet : List (GoStr × GoStr) → GoStr
  | [] => [0]
  | (a, b) :: l => 1 :: (encStr a ++ (encStr b ++ encSet l))

def decStr : GoStr → Option (GoStr × GoStr)
  | 1 :: c :: rest => (decStr rest).map fun p => (c :: p.1, p.2)
  | 0 :: rest => some ([], rest)
  | _ => none

def decSet : Nat → GoStr → Option (List (GoStr × GoStr))
  | n + 1, 1 :: rest =>
    match decStr rest with
    | some (a, rest) =>
      match decStr rest with
      | some (b, rest) => (decSet n rest).map ((a, b) :: ·)
      | none => none
    | none => none
  | _, 0 :: _ => some []
  | _, _ => none

theorem decStr_encStr (s rest : GoStr) : decStr (encStr s ++ rest) = some (s, rest) := by
  induction s with
  | nil => rfl
  | cons c s ih =>
    have : encStr (c :: s) ++ rest = 1 :: c :: (encStr s ++ rest) := by simp [encStr]
    rw [this, decStr, ih]
    rfl

theorem decSet_encSet : ∀ (l : List (GoStr × GoStr)) (n : Nat), l.length ≤ n → decSet n (encSet l) = some l
  | [], n, _ => by cases n <;> rfl
  | (a, b) :: l, 0, h => by simp at h
  | (a, b) :: l, n + 1, h => by
    have ih := decSet_encSet l n (by simpa using h)
    rw [encSet, decSet]
    simp only [decStr_encStr, ih, Option.map_some]

theorem encSet_length : ∀ l : List (GoStr × GoStr), l.length ≤ (encSet l).length
  | [] => Nat.zero_le _
  | (a, b) :: l => by
    have := encSet_length l
    simp only [encSet, List.length_cons, List.length_append]
    omega

/-- The concrete library. -/
def sampleJwx : JwxLib where
  Key := GoStr
  PrivKey := GoStr
  pemDecode s := if s = [] then none else if s = b!"priv" then some (b!"RSA PRIVATE KEY", s) else some (b!"PUBLIC KEY", s)
  parsePKIX s := if s = b!"ecdsa" then .ok none else if s = b!"bad" then .error b!"asn1" else .ok (some s)
  parsePKCS1 s := .ok s
  marshalSet l := some (encSet l)
  parseSet s := match decSet s.length s with
    | some l => .ok (l.map fun kv => (kv.1, some kv.2))
    | none => .error b!"invalid"
  parse_marshal l s h _ := by
    cases h
    rw [decSet_encSet l _ (encSet_length l)]

example : PublicKeyPem sampleJwx b!"key1" b!"key1" ∧ PrivateKeyPem sampleJwx b!"priv" b!"priv" ∧
    (∀ k, ¬ PublicKeyPem sampleJwx b!"priv" k) ∧ (∀ k, ¬ PublicKeyPem sampleJwx b!"ecdsa" k) := by
  refine ⟨⟨b!"key1", by decide, rfl⟩, ⟨b!"priv", by decide, rfl⟩, ?_, ?_⟩
  · rintro k ⟨b, h, _⟩
    have h' : sampleJwx.pemDecode b!"priv" = some (b!"RSA PRIVATE KEY", b!"priv") := by decide
    rw [h'] at h
    simp at h
  · rintro k ⟨b, h, h2⟩
    have h' : sampleJwx.pemDecode b!"ecdsa" = some (b!"PUBLIC KEY", b!"ecdsa") := by decide
    rw [h'] at h
    simp only [Option.some.injEq, Prod.mk.injEq, true_and] at h
    subst h
    cases h2

example : KeyOfSet sampleJwx (encSet [(b!"a", b!"k1"), (b!"b", b!"k2")]) b!"b" b!"k2" :=
  ⟨[(b!"a", some b!"k1")], [], rfl, by decide⟩

/-- A history: two keys, the first replaced, a bad key, a handler, and a late registration. -/
def sampleHistory : List (Op sampleJwx) :=
  [.addText b!"a" b!"key1", .addText b!"b" b!"key2", .addText b!"a" b!"key3", .addText b!"c" []]

example : LegalRun sampleJwx (init sampleJwx)
    (sampleHistory ++ .handler [(b!"b", b!"key2"), (b!"a", b!"key3")] :: [.addText b!"b" b!"key4"]) ∧
    (∀ kv ∈ sampleHistory.filterMap registers, ValidUtf8 kv.1) ∧
    lastRegistered b!"a" sampleHistory = some b!"key3" ∧ lastRegistered b!"c" sampleHistory = none := by
  refine ⟨⟨trivial, trivial, trivial, trivial, ?_, trivial, trivial⟩, ?_, rfl, rfl⟩
  · exact List.Perm.swap _ _ _
  · intro kv hk
    have : kv ∈ [(b!"a", b!"key1"), (b!"b", b!"key2"), (b!"a", b!"key3")] := hk
    rcases List.mem_cons.1 this with rfl | this
    · exact valid_ascii (by decide)
    rcases List.mem_cons.1 this with rfl | this
    · exact valid_ascii (by decide)
    rcases List.mem_cons.1 this with rfl | this
    · exact valid_ascii (by decide)
    cases this

end Goidc.Props
