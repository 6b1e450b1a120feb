import Verif.Spec.Confine
import Verif.Props.Origin
import Verif.Lemmas.TableStore
import Verif.Lemmas.OriginSample

/-! # C90: requests change only the data of the client they speak for -/

namespace Goidc.Props

open Spec TokenEndpoint AuthzEndpoint ResourceProtector StoreState

variable {ths : Nat → Thread} {g a b : List (Nat × Event)} {k : Nat} {e : Event}

theorem entitled_speaks {th : Thread} {pre : List Event} {uid : Int64} {cid sc : GoStr} (h : Entitled th pre uid cid sc) :
    SpeaksFor th pre uid cid := by
  cases h with
  | consent h1 h2 => exact .consent h1 h2
  | password _ h _ _ => exact .client h
  | owner _ h _ _ => exact .client h
  | assertion _ h _ _ _ _ => exact .client h

theorem codeCreated_speaks {th : Thread} {pre : List Event} {uid : Int64} {code cid uri v n : GoStr}
    (h : CodeCreated code th pre uid cid uri v n) : SpeaksFor th pre uid cid := by
  cases h with
  | consent h1 h2 _ _ => exact .consent h1 h2
  | silent h1 h2 _ => exact .silent h1 h2

/-- C90: in every deployment over a store that keeps its records, every call that changes stored data
concerns a client that the request making it speaks for. -/
theorem C90_confined (hth : ∀ i, Endpoint (ths i)) (hg : Interleaves ths g) (hk : KeepsRecords g)
    (hnil : NoNilAuthorization g) (hs : g = a ++ (k, e) :: b) (hm : e.q.isMutation = true) :
    ∃ uid cid, SpeaksFor (ths k) (callsOf k a) uid cid ∧ Concerns a k e.q uid cid := by
  have hkey : e.q.isKey = true := by
    cases e with | mk q x => cases q <;> first | rfl | (cases hm; done)
  have hpre : ∀ e ∈ callsOf k a, (k, e) ∈ g := fun e he => mem_left hs he
  have h := global_key hth hg hs hkey
  obtain ⟨q, x⟩ := e
  dsimp only at h hm ⊢
  cases q <;> first | (cases hm; done) | skip
  case createOrUpdateAuthInfo uid cid sc => exact ⟨uid, cid, entitled_speaks (recorded_entitled h), .record _ _ _⟩
  case createOAuthToken info f =>
    cases info with
    | some i => exact ⟨_, _, (created_speaks hk hpre h).1, .token i f⟩
    | none =>
      generalize ths k = th at h
      cases h with
      | token _ h => cases h
      | authorize _ _ _ _ _ h => cases h
      | complete _ _ h =>
        cases h with
        | complete info q hm' h => cases h; exact absurd (hpre _ hm') (hnil _ _ _ _)
  case createAuthSession info y =>
    cases info with
    | some i =>
      exact ⟨i.userId, i.clientId, codeCreated_speaks (session_origin hk hpre h).1, .session i y⟩
    | none =>
      generalize ths k = th at h
      cases h with
      | token _ h => cases h
      | authorize _ _ _ _ _ h => cases h
      | complete _ _ h =>
        cases h with
        | complete info q hm' h => cases h; exact absurd (hpre _ hm') (hnil _ _ _ _)
  case refreshAccessToken i old =>
    obtain ⟨h1, h2, _⟩ := refreshed_speaks h
    obtain ⟨ga, gb, hab⟩ := List.append_of_mem (hpre _ h2)
    exact ⟨_, _, h1, .refresh i old (hk.active hab).1⟩
  case disableSession sess =>
    generalize hth' : ths k = th at h
    cases h with
    | token ha h =>
      cases h with
      | spend sess info hm hf hc =>
        refine ⟨info.userId, info.clientId, ?_, .spend sess info (mem_callsOf.1 hf)⟩
        rw [hc]; exact .client ha
    | authorize _ _ _ _ _ h => cases h
    | complete _ _ h => cases h with | complete info q hm h => cases h
  case recordAssertionClaims cid jti iat exp =>
    generalize hth' : ths k = th at h
    cases h with
    | token ha h =>
      cases h with
      | claims => exact ⟨0, _, .client ha, .claims _ _ _ _ _⟩
    | authorize _ _ _ _ _ h => cases h
    | complete _ _ h => cases h with | complete info q hm h => cases h

/-! ## On the reference store -/

theorem sameFor_refl (d : GoStr) (s : StoreState) : SameFor d s s := ⟨fun _ _ => .rfl, fun _ => .rfl, fun _ => .rfl⟩

theorem sameFor_trans {d : GoStr} {s s1 s2 : StoreState} (h1 : SameFor d s s1) (h2 : SameFor d s1 s2) : SameFor d s s2 :=
  ⟨fun i hi => (h1.authorizations i hi).trans (h2.authorizations i hi), fun x => (h1.sessions x).trans (h2.sessions x),
    fun t => (h1.tokens t).trans (h2.tokens t)⟩

/-- Changing an authorization of another client. -/
theorem sameFor_setInfo {d : GoStr} {s : StoreState} {i : AuthInfo} (hd : i.clientId ≠ d)
    (hi : ∀ j, s.info i.id = some j → j.clientId ≠ d) : SameFor d s (s.setInfo i) := by
  have hof : ∀ id, OfClient s id d ↔ OfClient (s.setInfo i) id d := by
    intro id
    by_cases h : id = i.id
    · subst h
      constructor
      · rintro ⟨j, hj, hc⟩; exact absurd hc (hi j hj)
      · rintro ⟨j, hj, hc⟩; rw [info_set_self] at hj; cases hj; exact absurd hc hd
    · unfold OfClient; rw [info_set_ne s h]
  refine ⟨fun j hj => ?_, fun x => ?_, fun t => ?_⟩
  · by_cases h : j.id = i.id
    · constructor
      · intro h'; rw [h] at h'; exact absurd hj (hi j h')
      · intro h'; rw [h, info_set_self] at h'; cases h'; exact absurd hj hd
    · rw [info_set_ne s h]
  · rw [hof x.authId]; rfl
  · rw [hof t.authId]; rfl

theorem sameFor_pod {d : GoStr} {s s' : StoreState} {n : Nat} (h : SameFor d s s') : SameFor d s { s' with infoIdPod := n } :=
  ⟨h.authorizations, h.sessions, h.tokens⟩

/-- Storing a session of another client under a code that is free (or held by another client). -/
theorem sameFor_setSession {d : GoStr} {s : StoreState} {x : AuthSession} (hd : ¬ OfClient s x.authId d)
    (hx : ∀ y, s.session x.code = some y → ¬ OfClient s y.authId d) : SameFor d s (s.setSession x) := by
  refine ⟨fun _ _ => .rfl, fun y => ?_, fun _ => .rfl⟩
  by_cases h : y.code = x.code
  · constructor
    · rintro ⟨h1, h2⟩; rw [h] at h1; exact absurd h2 (hx y h1)
    · rintro ⟨h1, h2⟩
      have : (s.setSession x).session x.code = some x := find_set_self AuthSession.code s.sessions x
      rw [h, this] at h1
      cases h1
      exact absurd h2 hd
  · rw [session_set_ne s h]; exact .rfl

theorem sameFor_deleteSession {d : GoStr} {s : StoreState} {c : GoStr}
    (hx : ∀ y, s.session c = some y → ¬ OfClient s y.authId d) : SameFor d s (s.deleteSession c) := by
  refine ⟨fun _ _ => .rfl, fun y => ?_, fun _ => .rfl⟩
  by_cases h : y.code = c
  · subst h
    constructor
    · rintro ⟨h1, h2⟩; exact absurd h2 (hx y h1)
    · rintro ⟨h1, h2⟩; rw [session_delete_self] at h1; cases h1
  · rw [session_delete_ne s h]; exact .rfl

theorem token_delete_self (s : StoreState) (k : GoStr) : (s.deleteToken k).token k = none :=
  find_filter_self OAuthToken.accessToken s.tokens k

theorem sameFor_setToken {d : GoStr} {s : StoreState} {t : OAuthToken} (hd : ¬ OfClient s t.authId d)
    (hx : ∀ y, s.token t.accessToken = some y → ¬ OfClient s y.authId d) : SameFor d s (s.setToken t) := by
  refine ⟨fun _ _ => .rfl, fun _ => .rfl, fun y => ?_⟩
  by_cases h : y.accessToken = t.accessToken
  · constructor
    · rintro ⟨h1, h2⟩; rw [h] at h1; exact absurd h2 (hx y h1)
    · rintro ⟨h1, h2⟩
      rw [h, token_set_self] at h1
      cases h1
      exact absurd h2 hd
  · rw [token_set_ne s h]; exact .rfl

theorem sameFor_deleteToken {d : GoStr} {s : StoreState} {c : GoStr}
    (hx : ∀ y, s.token c = some y → ¬ OfClient s y.authId d) : SameFor d s (s.deleteToken c) := by
  refine ⟨fun _ _ => .rfl, fun _ => .rfl, fun y => ?_⟩
  by_cases h : y.accessToken = c
  · subst h
    constructor
    · rintro ⟨h1, h2⟩; exact absurd h2 (hx y h1)
    · rintro ⟨h1, h2⟩; rw [token_delete_self] at h1; cases h1
  · rw [token_delete_ne s h]; exact .rfl

/-- The reference store never answers that it recorded no authorization. -/
theorem store_noNil {s s' : StoreState} (hr : StoreRun s (g.map (·.2)) s') : NoNilAuthorization g := by
  intro k uid cid sc hm
  obtain ⟨a, b, rfl⟩ := List.append_of_mem hm
  rw [List.map_append, List.map_cons] at hr
  obtain ⟨m, m', _, h, _⟩ := run_at hr
  rcases h with ⟨_, _, _, _, h, _⟩ | ⟨_, h, _⟩ <;> cases h

theorem notOf {s : StoreState} {i : AuthInfo} {j : AuthInfo} {d : GoStr} (hj : s.info i.id = some j)
    (hc : j.clientId = i.clientId) (hd : i.clientId ≠ d) : ¬ OfClient s i.id d := by
  rintro ⟨j', hj', hc'⟩
  rw [hj] at hj'
  cases hj'
  exact hd (hc.symm.trans hc')

/-- A code is spent through the session found for it. -/
theorem spent_found {th : Thread} {pre : List Event} {sess : AuthSession} (h : KeyCall th pre (.disableSession sess)) :
    ∃ code, ⟨.findAuthSessionByCode code, (some sess, none)⟩ ∈ pre := by
  cases h with
  | token _ h => cases h with | spend _ info hm hf hc => exact ⟨_, hm⟩
  | authorize _ _ _ _ _ h => cases h
  | complete _ _ h => cases h with | complete info q hm h => cases h

/-- C90: on the reference store, with fresh authorization codes (and at most 2^63 authorizations), no call of
any request, in any interleaving of any requests, changes anything of a client the request does not speak
for. -/
theorem C90_store {users clients} {s1 s2 s3 : StoreState} (hth : ∀ i, Endpoint (ths i)) (hg : Interleaves ths g)
    (hs : g = a ++ (k, e) :: b) (h1 : StoreRun (StoreState.init users clients) (a.map (·.2)) s1) (h2 : s1.Answers e s2)
    (h3 : StoreRun s2 (b.map (·.2)) s3) (hp : s3.infoIdPod < 2 ^ 63) (hf : CodesFresh g) {d : GoStr}
    (hd : ∀ uid, ¬ SpeaksFor (ths k) (callsOf k a) uid d) : SameFor d s1 s2 := by
  have hrun : StoreRun (StoreState.init users clients) (g.map (·.2)) s3 := by
    rw [hs, List.map_append, List.map_cons]
    exact chain_append.2 ⟨_, h1, .cons h2 h3⟩
  have hk := store_keeps hrun hp
  have hp2 : s2.infoIdPod < 2 ^ 63 := Nat.lt_of_le_of_lt (pod_run h3) hp
  have hp1 : s1.infoIdPod < 2 ^ 63 := Nat.lt_of_le_of_lt (pod_step h2) hp2
  have hex := explains_run (explains_init users clients) h1 hp1
  rw [List.nil_append] at hex
  have hok := hex.ok
  cases hw : e.q.isStoreWrite with
  | false => rw [answers_read h2 hw]; exact sameFor_refl d s1
  | true =>
    have hmut : e.q.isMutation = true := by
      cases e with | mk q x => cases q <;> first | rfl | (cases hw; done)
    obtain ⟨uid, cid, hsp, hc⟩ := C90_confined hth hg hk (store_noNil hrun) hs hmut
    have hne : cid ≠ d := by rintro rfl; exact hd uid hsp
    have hpre : ∀ e ∈ callsOf k a, (k, e) ∈ a := fun e he => mem_callsOf.1 he
    obtain ⟨q, x⟩ := e
    have h := h2
    unfold Answers at h
    cases q <;> simp only [Query.isStoreWrite, Bool.false_eq_true] at hw <;> simp only [step] at h
    case createOrUpdateAuthInfo uid' cid' sc =>
      cases hc
      rcases h with ⟨i, hi, hu, hcl, _, rfl⟩ | ⟨_, _, rfl⟩
      · refine sameFor_setInfo (i := updInfo i uid sc) (by rw [show (updInfo i uid sc).clientId = i.clientId from rfl, hcl]; exact hne) fun j hj => ?_
        rw [show (updInfo i uid sc).id = i.id from rfl, hok.infoKeys i hi] at hj
        cases hj
        rw [hcl]; exact hne
      · refine sameFor_pod (sameFor_setInfo (i := newInfo _ _ _ _) hne fun j hj => ?_)
        obtain ⟨h4, h5⟩ := info_mem hj
        obtain ⟨n, hn, hid⟩ := hok.infoIds j h4
        rw [hid] at h5
        have : n = s1.infoIdPod := ofNat_inj (Nat.lt_trans hn hp1) hp1 h5
        omega
    case createAuthSession info y =>
      cases hc with
      | session i _ =>
        obtain ⟨_, rfl⟩ := h
        have hkey := global_key hth hg hs rfl
        obtain ⟨_, e', he', hsh⟩ := session_origin (store_keeps h1 hp1) hpre hkey
        obtain ⟨j, hj, _, hjc⟩ := hex.shown k e' i he' hsh
        refine sameFor_setSession (x := newSession i y) (notOf hj hjc hne) fun z hz => ?_
        obtain ⟨hz1, hz2⟩ := session_mem hz
        obtain ⟨k', i', y', hm, rfl⟩ := hex.sessions z hz1
        obtain ⟨a1, a2, rfl⟩ := List.append_of_mem hm
        exact absurd hz2 (hf a1 a2 b k' k (some i') (some i) y' y _ _ (by rw [hs]))
    case createOAuthToken info f =>
      cases hc with
      | token i _ =>
        obtain ⟨n1, n2, _, rfl⟩ := h
        have hkey := global_key hth hg hs rfl
        obtain ⟨_, e', he', hsh⟩ := created_speaks (store_keeps h1 hp1) hpre hkey
        obtain ⟨j, hj, _, hjc⟩ := hex.shown k e' i he' hsh
        refine sameFor_setToken (t := newToken i n1 n2) (notOf hj hjc hne) fun z hz => ?_
        obtain ⟨hz1, hz2⟩ := token_mem hz
        obtain ⟨n, hn⟩ := hok.tokenNames z hz1
        rw [hz2, newToken_name] at hn
        rw [← tokenName_inj hn]
        exact notOf hj hjc hne
    case refreshAccessToken i old =>
      cases hc with
      | refresh _ _ hid =>
        obtain ⟨t, n, ht, _, rfl⟩ := h
        obtain ⟨_, hact, rt, hfr⟩ := refreshed_speaks (global_key hth hg hs rfl)
        obtain ⟨j, hj, _, hjc⟩ := hex.shown k _ i (hpre _ hact) (.active _)
        obtain ⟨n1, hn1⟩ := hex.names k rt old (hpre _ hfr)
        obtain ⟨n2, hn2⟩ := hok.tokenNames t (token_mem ht).1
        rw [(token_mem ht).2, hn1] at hn2
        have hta : t.authId = i.id := by rw [hid]; exact (tokenName_inj hn2).symm
        have hno : ¬ OfClient s1 t.authId d := by rw [hta]; exact notOf hj hjc hne
        refine sameFor_trans (sameFor_deleteToken (c := old.accessToken) fun y hy => ?_) (sameFor_setToken hno fun y hy => ?_)
        · rw [ht] at hy; cases hy; exact hno
        · obtain ⟨hy1, hy2⟩ := token_mem hy
          obtain ⟨m, hm⟩ := (ok_deleteToken hok old.accessToken).tokenNames y hy1
          obtain ⟨m', hm'⟩ := hok.tokenNames t (token_mem ht).1
          rw [hy2, refreshed_name hm'] at hm
          rw [← tokenName_inj hm]
          exact hno
    case disableSession x' =>
      obtain ⟨_, rfl⟩ := h
      cases hc with
      | spend _ i hm =>
        obtain ⟨j, hj, _, hjc⟩ := hex.shown k _ i hm (.active _)
        have hid : i.id = x'.authId := by
          obtain ⟨ga, gb, hab⟩ := List.append_of_mem hm
          exact ((store_keeps h1 hp1).active hab).1
        obtain ⟨code, hfc⟩ := spent_found (global_key hth hg hs rfl)
        obtain ⟨a1, a2, hsa⟩ := List.append_of_mem (hpre _ hfc)
        obtain ⟨k1, i1, y1, hm1, hy1, hau, _⟩ := (store_keeps h1 hp1).sessions hsa
        rw [hsa, List.map_append, List.map_cons] at h1
        obtain ⟨m, m', hr1, hans, _⟩ := run_at h1
        have hcode := (session_mem (answer_val hans.1)).2
        refine sameFor_deleteSession fun z hz => ?_
        obtain ⟨hz1, hz2⟩ := session_mem hz
        obtain ⟨k2, i2, y2, hm2, rfl⟩ := hex.sessions z hz1
        have hm1' : (k1, (⟨.createAuthSession (some i1) y1, none⟩ : Event)) ∈ g := by rw [hs, hsa]; simp [hm1]
        have hm2' : (k2, (⟨.createAuthSession (some i2) y2, none⟩ : Event)) ∈ g := by rw [hs]; simp [hm2]
        have hceq : y2.code = y1.code := by
          rw [hy1, ← hcode]; exact hz2
        have : i2 = i1 := by
          refine Decidable.byContradiction fun hii => ?_
          rcases two_mem hm1' hm2' (by intro h; cases h; exact hii rfl) with ⟨a, b, c, h⟩ | ⟨a, b, c, h⟩
          · exact hf _ _ _ _ _ _ _ _ _ _ _ h hceq.symm
          · exact hf _ _ _ _ _ _ _ _ _ _ _ h hceq
        subst this
        show ¬ OfClient s1 i2.id d
        rw [← hau, ← hid]
        exact notOf hj hjc hne

theorem speaksFor_mono {th : Thread} {pre pre' : List Event} {uid : Int64} {cid : GoStr} (h : SpeaksFor th pre uid cid)
    (hs : ∀ e ∈ pre, e ∈ pre') : SpeaksFor th pre' uid cid := by
  cases h with
  | client ha => exact .client (authenticated_mono ha hs)
  | consent h1 h2 => exact .consent (hs _ h1) (hs _ h2)
  | silent h1 h2 => exact .silent (hs _ h1) (hs _ h2)

/-- C90: on the reference store, with fresh authorization codes (and at most 2^63 authorizations), whatever
requests are served, in any interleaving and with any requests failing or stopping anywhere, the data of a
client is not changed while no request that speaks for that client makes a call. -/
theorem C90_untouched {users clients} {s1 s2 : StoreState} (hth : ∀ i, Endpoint (ths i)) (hg : Interleaves ths (a ++ b))
    (h1 : StoreRun (StoreState.init users clients) (a.map (·.2)) s1) (h2 : StoreRun s1 (b.map (·.2)) s2)
    (hp : s2.infoIdPod < 2 ^ 63) (hf : CodesFresh (a ++ b)) {d : GoStr}
    (hd : ∀ k e uid, (k, e) ∈ b → ¬ SpeaksFor (ths k) (callsOf k (a ++ b)) uid d) : SameFor d s1 s2 := by
  induction b generalizing a s1 with
  | nil => cases h2; exact sameFor_refl d _
  | cons x b ih =>
    obtain ⟨k, e⟩ := x
    rw [List.map_cons] at h2
    cases h2 with
    | @cons _ m _ _ _ h2 h3 =>
      have happ : a ++ (k, e) :: b = (a ++ [(k, e)]) ++ b := by simp
      refine sameFor_trans (C90_store hth hg rfl h1 h2 h3 hp hf fun uid hsp => ?_) (ih (a := a ++ [(k, e)]) (happ ▸ hg) ?_ h3
        (happ ▸ hf) ?_)
      · refine hd k e uid (by simp) (speaksFor_mono hsp fun e he => ?_)
        rw [callsOf_append]; simp [he]
      · rw [List.map_append]
        exact chain_append.2 ⟨_, h1, .cons h2 (.nil _)⟩
      · rw [← happ]
        exact fun k' e' uid hm => hd k' e' uid (List.mem_cons_of_mem _ hm)

/-! ## A case: two clients -/

/-- A second client. -/
def otherClient : Client := { Sample.client with id := b!"other" }

/-- A request of the second client. -/
def otherPost : Req := { Sample.post Sample.passwordBody with headers := [(b!"Authorization", b!"Basic b3RoZXI6c2VjcmV0")] }

def twoThreads : Nat → Prog Unit
  | 0 => handler Sample.tokenCfg Sample.lib (Sample.post Sample.passwordBody)
  | 1 => handler Sample.tokenCfg Sample.lib otherPost
  | _ => .ret ()

def twoStart : StoreState := StoreState.init [⟨5, b!"u", b!"p"⟩] [Sample.client, otherClient]

def twoRun : List (Nat × Event) × StoreState :=
  schedule (StoreState.det 1000) (List.replicate 20 0 ++ List.replicate 20 1) twoThreads twoStart

/-- A call that could make a request speak for the client `d`. -/
def mayName (d : GoStr) : Event → Bool
  | ⟨.getLoginUserId, _⟩ => true
  | ⟨.findClientById _, (some c, _)⟩ => c.id == d
  | _ => false

theorem not_speaks {th : Thread} {pre : List Event} {uid : Int64} {d : GoStr} (h : pre.all (fun e => !mayName d e) = true) :
    ¬ SpeaksFor th pre uid d := by
  intro hs
  have no : ∀ e ∈ pre, mayName d e = false := fun e he => by simpa using List.all_eq_true.1 h e he
  cases hs with
  | client ha =>
    rcases ha with ⟨_, _, _, _, hm, _⟩ | ⟨_, _, _, _, _, _, _, hm⟩ <;> · have := no _ hm; simp [mayName] at this
  | consent _ hm => cases no _ hm
  | silent hm _ => cases no _ hm

/-- The second client gets a token while nothing of the first changes. -/
example : ∃ a b s1, Interleaves (fun i => ⟨twoThreads i⟩) (a ++ b) ∧ (∀ i, Endpoint ⟨twoThreads i⟩) ∧
    StoreRun twoStart (a.map (·.2)) s1 ∧ StoreRun s1 (b.map (·.2)) twoRun.2 ∧ twoRun.2.infoIdPod < 2 ^ 63 ∧ CodesFresh (a ++ b) ∧
    (∀ k e uid, (k, e) ∈ b → ¬ SpeaksFor ⟨twoThreads k⟩ (callsOf k (a ++ b)) uid b!"client") ∧
    (∃ resp, (0, wrote resp) ∈ a ∧ resp.status = 200) ∧ (∃ resp, (1, wrote resp) ∈ b ∧ resp.status = 200) := by
  have hs : twoRun.1 = twoRun.1.take 10 ++ twoRun.1.drop 10 := (List.take_append_drop _ _).symm
  have hrun : StoreRun twoStart (twoRun.1.map (·.2)) twoRun.2 :=
    schedule_chain (fun _ _ _ _ h => StoreState.det_step h) _ twoThreads twoStart
  rw [hs, List.map_append] at hrun
  obtain ⟨s1, h1, h2⟩ := chain_append.1 hrun
  refine ⟨twoRun.1.take 10, twoRun.1.drop 10, s1, ?_, ?_, h1, h2, by decide +kernel, ?_, ?_,
    answered_mem (by decide +kernel), answered_mem (by decide +kernel)⟩
  · rw [← hs]; exact schedule_interleaves (StoreState.det 1000) _ twoThreads twoStart
  · intro i
    match i with
    | 0 => exact .token sample_allBuiltIn
    | 1 => exact .token sample_allBuiltIn
    | _ + 2 => exact .idle
  · rw [← hs]; exact codesFresh_of_nodup (by decide +kernel)
  · intro k e uid hm
    have hk : k = 1 := by
      have h : (twoRun.1.drop 10).all (fun x => x.1 == 1) = true := by decide +kernel
      simpa using List.all_eq_true.1 h _ hm
    subst hk
    rw [← hs]
    exact not_speaks (by decide +kernel)

/-- The deployment with consent, code and protected request: every changing call is confined. -/
example : (∀ i, Endpoint (Sample.webEndpoints i)) ∧ Interleaves Sample.webEndpoints Sample.webCalls ∧ KeepsRecords Sample.webCalls ∧
    NoNilAuthorization Sample.webCalls ∧ ((Sample.webCalls.filter fun x => x.2.q.isMutation).length = 4) := by
  refine ⟨Sample.web_endpoints sample_allBuiltIn, Sample.web_interleaves, Sample.web_keeps, ?_, by decide +kernel⟩
  intro k uid cid sc hm
  have h : Sample.webCalls.all (fun x => match x.2 with
    | ⟨.createOrUpdateAuthInfo _ _ _, (none, none)⟩ => false
    | _ => true) = true := by decide +kernel
  have := List.all_eq_true.1 h _ hm
  simp at this

end Goidc.Props
