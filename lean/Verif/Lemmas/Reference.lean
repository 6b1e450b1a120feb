import Verif.Spec.Reference
import Verif.Lemmas.Snoc
import Verif.Lemmas.TableStore

/-! # What the set-up calls leave in the reference store -/

namespace Goidc

open Spec

theorem clientsIn_append (a b : List SetupOp) : clientsIn (a ++ b) = clientsIn a + clientsIn b := by
  induction a with
  | nil => simp [clientsIn]
  | cons x a ih => cases x <;> simp only [List.cons_append, clientsIn, ih] <;> omega

theorem usersAfter_append (n : Nat) (a b : List SetupOp) : usersAfter n (a ++ b) = usersAfter (usersAfter n a) b := by
  induction a generalizing n with
  | nil => simp [usersAfter]
  | cons x a ih => cases x <;> simp only [List.cons_append, usersAfter, ih]

theorem usersAfter_le (n : Nat) (a : List SetupOp) : usersAfter n a ≤ n + a.length := by
  induction a generalizing n with
  | nil => simp [usersAfter]
  | cons x a ih =>
    cases x <;> simp only [usersAfter, List.length_cons]
    case createUser => have := ih (n + 1); omega
    case clearAll => have := ih 0; omega
    all_goals have := ih n; omega

theorem registeredClient_snoc {ops : List SetupOp} {op : SetupOp} {k o cid s u} :
    RegisteredClient (ops ++ [op]) k o cid s u ↔
      (op = .createClient o cid s u ∧ clientsIn ops = k) ∨
      (op ≠ .clearAll ∧ (∀ o s u, op ≠ .createClient o cid s u) ∧ RegisteredClient ops k o cid s u) := by
  constructor
  · rintro ⟨a, b, h, hk, hc, hn⟩
    rcases snoc_split.1 h with ⟨rfl, rfl, rfl⟩ | ⟨b', rfl, rfl⟩
    · exact .inl ⟨rfl, hk⟩
    · refine .inr ⟨?_, ?_, a, b', rfl, hk, fun h => hc (by simp [h]), fun o s u h => hn o s u (by simp [h])⟩
      · rintro rfl; exact hc (by simp)
      · rintro o s u rfl; exact hn o s u (by simp)
  · rintro (⟨rfl, rfl⟩ | ⟨h1, h2, a, b, rfl, hk, hc, hn⟩)
    · exact ⟨ops, [], by simp, rfl, by simp, by simp⟩
    · refine ⟨a, b ++ [op], by simp, hk, ?_, ?_⟩
      · simp [hc, Ne.symm h1]
      · intro o s u h
        rcases List.mem_append.1 h with h | h
        · exact hn _ _ _ h
        · exact h2 o s u (List.mem_singleton.1 h).symm

theorem grantAllowed_snoc {ops : List SetupOp} {op : SetupOp} {k gt} :
    GrantAllowed (ops ++ [op]) k gt ↔ (op = .allow k gt ∧ k < clientsIn ops) ∨ GrantAllowed ops k gt := by
  constructor
  · rintro ⟨a, b, h, hk⟩
    rcases snoc_split.1 h with ⟨rfl, rfl, rfl⟩ | ⟨b', rfl, rfl⟩
    · exact .inl ⟨rfl, hk⟩
    · exact .inr ⟨a, b', rfl, hk⟩
  · rintro (⟨rfl, hk⟩ | ⟨a, b, rfl, hk⟩)
    · exact ⟨ops, [], by simp, hk⟩
    · exact ⟨a, b ++ [op], by simp, hk⟩

theorem grantAllowed_lt {ops : List SetupOp} {k gt} (h : GrantAllowed ops k gt) : k < clientsIn ops := by
  obtain ⟨a, b, rfl, hk⟩ := h
  rw [clientsIn_append]; omega

theorem registeredUser_snoc {ops : List SetupOp} {op : SetupOp} {n p uid} :
    RegisteredUser (ops ++ [op]) n p uid ↔
      (op = .createUser n p ∧ uid.toInt = usersAfter 0 ops) ∨ (op ≠ .clearAll ∧ RegisteredUser ops n p uid) := by
  constructor
  · rintro ⟨a, b, h, hc, hu⟩
    rcases snoc_split.1 h with ⟨rfl, rfl, rfl⟩ | ⟨b', rfl, rfl⟩
    · exact .inl ⟨rfl, hu⟩
    · refine .inr ⟨?_, a, b', rfl, fun h => hc (by simp [h]), hu⟩
      rintro rfl; exact hc (by simp)
  · rintro (⟨rfl, hu⟩ | ⟨h1, a, b, rfl, hc, hu⟩)
    · exact ⟨ops, [], by simp, by simp, hu⟩
    · exact ⟨a, b ++ [op], by simp, by simp [hc, Ne.symm h1], hu⟩

theorem setupOf_snoc (key : GoStr) (ops : List SetupOp) (op : SetupOp) :
    setupOf key (ops ++ [op]) = (setupOf key ops).apply key op := by
  unfold setupOf; rw [List.foldl_append]; rfl

/-- What holds of the clients after a history of set-up calls. -/
structure ClientsOk (key : GoStr) (ops : List SetupOp) (s : Setup) : Prop where
  count : s.objs.length = clientsIn ops
  grants : ∀ k c, s.objs[k]? = some c → ∀ gt, gt ∈ c.grantTypes ↔ GrantAllowed ops k gt
  sound : ∀ p ∈ s.clients, ∃ owner secret uri c, RegisteredClient ops p.2 owner p.1 secret uri ∧ s.objs[p.2]? = some c ∧
    c.ownerId = owner ∧ c.id = p.1 ∧ c.secret = secret ∧ c.redirectURI = uri ∧ c.idTokenAlg = b!"RS256" ∧
    c.idTokenKeyId = b!"my_service_key_id" ∧ c.idTokenKey = some (.rsaPriv key)
  complete : ∀ k o cid sec u, RegisteredClient ops k o cid sec u → (cid, k) ∈ s.clients
  keys : (s.clients.map (·.1)).Nodup

theorem clients_ok (key : GoStr) (ops : List SetupOp) : ClientsOk key ops (setupOf key ops) := by
  induction ops using snoc_induction with
  | h0 =>
    exact ⟨rfl, fun _ _ h => by simp [setupOf, Setup.new] at h, fun _ h => by simp [setupOf, Setup.new] at h,
      fun _ _ _ _ _ ⟨a, b, h, _⟩ => by simp at h, by simp [setupOf, Setup.new]⟩
  | h1 ops op ih =>
    obtain ⟨ic, ig, is, ico, ik⟩ := ih
    rw [setupOf_snoc]
    generalize setupOf key ops = s at *
    cases op with
    | createUser n p =>
      refine ⟨by simpa [Setup.apply, Setup.createNewUser, clientsIn_append, clientsIn] using ic,
        fun k c hc gt => (ig k c hc gt).trans (by rw [grantAllowed_snoc]; simp), fun p hp => ?_, fun k o cid sec u h => ?_, ik⟩
      · obtain ⟨o, sec, u, c, h1, h2⟩ := is p hp
        exact ⟨o, sec, u, c, registeredClient_snoc.2 (.inr ⟨by simp, by simp, h1⟩), h2⟩
      · rcases registeredClient_snoc.1 h with ⟨h, _⟩ | ⟨_, _, h⟩
        · cases h
        · exact ico _ _ _ _ _ h
    | clearAuthData =>
      refine ⟨by simpa [Setup.apply, clientsIn_append, clientsIn] using ic,
        fun k c hc gt => (ig k c hc gt).trans (by rw [grantAllowed_snoc]; simp), fun p hp => ?_, fun k o cid sec u h => ?_, ik⟩
      · obtain ⟨o, sec, u, c, h1, h2⟩ := is p hp
        exact ⟨o, sec, u, c, registeredClient_snoc.2 (.inr ⟨by simp, by simp, h1⟩), h2⟩
      · rcases registeredClient_snoc.1 h with ⟨h, _⟩ | ⟨_, _, h⟩
        · cases h
        · exact ico _ _ _ _ _ h
    | clearAll =>
      refine ⟨by simpa [Setup.apply, clientsIn_append, clientsIn] using ic,
        fun k c hc gt => (ig k c hc gt).trans (by rw [grantAllowed_snoc]; simp), (fun p hp => by cases hp), fun k o cid sec u h => ?_,
        by simp [Setup.apply]⟩
      rcases registeredClient_snoc.1 h with ⟨h, _⟩ | ⟨h, _⟩
      · cases h
      · exact absurd rfl h
    | allow k0 gt0 =>
      refine ⟨by simpa [Setup.apply, clientsIn_append, clientsIn] using ic, fun k c hc gt => ?_, fun p hp => ?_,
        fun k o cid sec u h => ?_, ik⟩
      · simp only [Setup.apply, List.getElem?_modify] at hc
        rw [grantAllowed_snoc]
        cases hk : s.objs[k]? with
        | none => rw [hk] at hc; simp at hc
        | some c' =>
          have hlt : k < s.objs.length := (List.getElem?_eq_some_iff.1 hk).1
          rw [hk] at hc
          simp only [Option.map_eq_map, Option.map_some, Option.some.injEq] at hc
          have := ig k c' hk gt
          split at hc
          · subst_vars
            simp only [TestClient.allowToUseGrantType, List.mem_cons, SetupOp.allow.injEq, true_and]
            rw [this, ← ic]
            grind
          · subst hc
            rw [this]
            simp_all
      · obtain ⟨o, sec, u, c, h1, h2, h3⟩ := is p hp
        refine ⟨o, sec, u, if k0 = p.2 then c.allowToUseGrantType gt0 else c,
          registeredClient_snoc.2 (.inr ⟨by simp, by simp, h1⟩), ?_, ?_⟩
        · simp only [Setup.apply, List.getElem?_modify, h2]
          simp
        · split <;> exact h3
      · rcases registeredClient_snoc.1 h with ⟨h, _⟩ | ⟨_, _, h⟩
        · cases h
        · exact ico _ _ _ _ _ h
    | createClient o cid sec u =>
      refine ⟨by simpa [Setup.apply, Setup.createNewClient, clientsIn_append, clientsIn] using ic, fun k c hc gt => ?_,
        fun p hp => ?_, fun k o' cid' sec' u' h => ?_, ?_⟩
      · simp only [Setup.apply, Setup.createNewClient] at hc
        rw [grantAllowed_snoc]
        rcases Nat.lt_trichotomy k s.objs.length with hk | hk | hk
        · rw [List.getElem?_append_left hk] at hc
          simp [ig k c hc gt]
        · subst hk
          simp at hc
          subst hc
          have : ¬ GrantAllowed ops s.objs.length gt := fun h => by have := grantAllowed_lt h; omega
          simp [TestClient.new, this]
        · rw [List.getElem?_eq_none (by simp; omega)] at hc; cases hc
      · simp only [Setup.apply, Setup.createNewClient, List.mem_cons, List.mem_filter, decide_eq_true_eq] at hp
        rcases hp with rfl | ⟨hp, hne⟩
        · refine ⟨o, sec, u, TestClient.new o cid sec u b!"RS256" (some (.rsaPriv key)) b!"my_service_key_id",
            registeredClient_snoc.2 (.inl ⟨rfl, ic.symm⟩), ?_, ?_⟩
          · simp [Setup.apply, Setup.createNewClient]
          · simp [TestClient.new]
        · obtain ⟨o', sec', u', c, h1, h2, h3⟩ := is p hp
          refine ⟨o', sec', u', c, registeredClient_snoc.2 (.inr ⟨by simp, ?_, h1⟩), ?_, h3⟩
          · rintro o1 s1 u1 h
            cases h; exact hne rfl
          · simp only [Setup.apply, Setup.createNewClient]
            rw [List.getElem?_append_left (List.getElem?_eq_some_iff.1 h2).1, h2]
      · simp only [Setup.apply, Setup.createNewClient, List.mem_cons, List.mem_filter, decide_eq_true_eq]
        rcases registeredClient_snoc.1 h with ⟨h, hk⟩ | ⟨_, hne, h⟩
        · cases h; left; rw [ic, hk]
        · right
          refine ⟨ico _ _ _ _ _ h, fun h => ?_⟩
          exact hne o sec u (by simp [h])
      · simp only [Setup.apply, Setup.createNewClient, List.map_cons, List.nodup_cons]
        refine ⟨by simp, ?_⟩
        exact (ik.sublist (List.filter_sublist.map _))

/-- What holds of the users after a history of fewer than `2^63` set-up calls. -/
theorem users_ok (key : GoStr) (ops : List SetupOp) (hl : ops.length < 2 ^ 63) :
    (setupOf key ops).userIdPod = usersAfter 0 ops ∧ (∀ u ∈ (setupOf key ops).users, u.id.toInt < usersAfter 0 ops) ∧
    ∀ u : TestUser, u ∈ (setupOf key ops).users ↔ RegisteredUser ops u.username u.password u.id := by
  induction ops using snoc_induction with
  | h0 =>
    refine ⟨rfl, fun _ h => by simp [setupOf, Setup.new] at h, fun u => ⟨fun h => by simp [setupOf, Setup.new] at h, ?_⟩⟩
    rintro ⟨a, b, h, _⟩
    simp at h
  | h1 ops op ih =>
    simp only [List.length_append, List.length_cons, List.length_nil, Nat.zero_add] at hl
    obtain ⟨ip, il, iu⟩ := ih (by omega)
    have hle := usersAfter_le 0 ops
    rw [setupOf_snoc, usersAfter_append]
    generalize setupOf key ops = s at *
    cases op with
    | createUser n p =>
      have hid : (Int64.ofNat s.userIdPod).toInt = usersAfter 0 ops := by
        rw [ip]; exact Int64.toInt_ofNat_of_lt (by omega)
      refine ⟨by simp [Setup.apply, Setup.createNewUser, usersAfter, ip], fun u hu => ?_, fun u => ?_⟩
      · simp only [Setup.apply, Setup.createNewUser, List.mem_cons, List.mem_filter] at hu
        simp only [usersAfter]
        rcases hu with rfl | ⟨hu, _⟩
        · simp only [hid]; omega
        · have := il u hu; omega
      · simp only [Setup.apply, Setup.createNewUser, List.mem_cons, List.mem_filter, decide_eq_true_eq]
        rw [registeredUser_snoc, ← iu u]
        constructor
        · rintro (rfl | ⟨hu, _⟩)
          · exact .inl ⟨rfl, hid⟩
          · exact .inr ⟨by simp, hu⟩
        · rintro (⟨h, h'⟩ | ⟨_, hu⟩)
          · obtain ⟨uid, un, up⟩ := u
            simp only [SetupOp.createUser.injEq] at h
            obtain ⟨rfl, rfl⟩ := h
            left
            rw [TestUser.mk.injEq]
            exact ⟨Int64.toInt_inj.1 (by simp only at h'; rw [h', hid]), rfl, rfl⟩
          · right
            refine ⟨hu, fun h => ?_⟩
            have := il u hu
            rw [h, hid] at this
            omega
    | clearAll =>
      refine ⟨rfl, fun u hu => (by simp [Setup.apply] at hu), fun u => ?_⟩
      rw [registeredUser_snoc]
      simp [Setup.apply]
    | _ =>
      refine ⟨by simpa [Setup.apply, Setup.createNewClient, usersAfter] using ip, fun u hu => ?_, fun u => ?_⟩
      · simpa [usersAfter] using il u hu
      · rw [registeredUser_snoc]
        simp only [Setup.apply, Setup.createNewClient, iu u]
        simp

end Goidc
