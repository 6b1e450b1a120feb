import Verif.Props.Store

/-! # C125: an assertion serves once, also within one request -/

namespace Goidc.Props

open Spec TokenEndpoint

variable {ths : Nat → Thread} {g : List (Nat × Event)}

/-- C125: against a store whose `RecordAssertionClaims` reports success at most once per client and `jti`, no request is granted
that authenticates its client by an assertion and presents an assertion with the same `jti` (or, both, with none) as its grant. -/
theorem C125_once (hg : Interleaves ths g) (honce : RecordsOnce g) {cfg : TokenCfg} {lib : Lib} {r : Req} {i : Nat} {resp : HttpResp}
    {ca : GoStr} {tk tk' : JwtToken} (hi : ths i = ⟨handler cfg lib r⟩) (hreg : Registered cfg r (Grant.jwt lib))
    (hno : ∀ cid sec b, ¬ Presented cfg.acceptance r cid sec b) (hca : PresentedAssertion r ca)
    (h1 : lib.jwtDecode ca = some tk) (h2 : lib.jwtDecode (r.formValue b!"assertion") = some tk')
    (hw : (i, wrote resp) ∈ g) (h200 : resp.status = 200) :
    (tk.claimStr b!"jti").getD [] ≠ (tk'.claimStr b!"jti").getD [] := by
  intro hj
  have hgi := hg i
  rw [hi] at hgi
  obtain ⟨pre, post, he⟩ := List.append_of_mem (mem_callsOf.2 hw)
  have hs : Steps (handler cfg lib r) (pre ++ [wrote resp]) :=
    steps_of_append (t' := post) (by rw [he] at hgi; simpa using hgi)
  obtain ⟨_, _, hf, c, t1, now, t2, res, hreg', ha, hok, rfl, rfl⟩ := token_200 (registered_silent hreg .jwt) hs h200
  have hff : Grant.jwt lib = hf := Option.some.inj (hreg.symm.trans hreg')
  subst hff
  cases ha with
  | secret cid sec b hp => exact absurd hp (hno _ _ _)
  | assertion ca' _ _ hpa hrun =>
    obtain rfl : ca' = ca := hpa.1.symm.trans hca.1
    obtain ⟨tk1, sub, wall, exp, aud, ⟨hd, _⟩, _, _, _, _, _, _, _, rfl⟩ := runs_byAssertion hrun
    obtain ⟨tk2, key, wall', exp', aud', sub', uid, info, otk, _, hd', _, _, _, _, _, _, _, _, _, _, rfl, _⟩ := jwt_ok hok
    obtain rfl : tk1 = tk := Option.some.inj (hd.symm.trans h1)
    obtain rfl : tk2 = tk' := Option.some.inj (hd'.symm.trans h2)
    obtain ⟨rest, hc⟩ : ∃ rest, callsOf i g = [⟨.findClientById sub, (some c, none)⟩, ⟨.wallNow, wall⟩] ++
        ⟨.recordAssertionClaims c.id ((tk1.claimStr b!"jti").getD []) ((Assertion.numClaim (tk1.claim b!"iat")).getD (-1)) exp, none⟩ ::
        ([⟨.issuer, aud⟩, ⟨.now, now⟩, ⟨.wallNow, wall'⟩] ++
        ⟨.recordAssertionClaims c.id ((tk2.claimStr b!"jti").getD []) ((Assertion.numClaim (tk2.claim b!"iat")).getD (-1)) exp', none⟩ ::
        rest) := by
      rw [he]
      simp only [List.append_assoc, List.cons_append, List.nil_append]
      exact ⟨_, rfl⟩
    obtain ⟨p, q, rfl, _, hq⟩ := callsOf_split hc
    obtain ⟨p', q', rfl, _, _⟩ := callsOf_split hq
    exact honce p p' q' i i _ _ _ _ _ _ _ _ (List.append_assoc p ((i, _) :: p') ((i, _) :: q')).symm ⟨rfl, hj⟩

/-! ## A request with two assertions -/

/-- The sample library, with a second token. -/
def pairLib : Lib :=
  { Sample.lib with
    jwtDecode := fun s => if s = b!"tok" then some Sample.jwt else if s = b!"tok2" then
      some { Sample.jwt with raw := b!"tok2", claims := (b!"jti", .str b!"j2") :: Sample.jwt.claims } else none
    jwtDecode_raw := by
      intro s t h
      split at h
      · rename_i hs; cases h; exact hs.symm
      · split at h
        · rename_i hs; cases h; exact hs.symm
        · cases h }

def pairCfg : TokenCfg := { Sample.tokenCfg with handlers := [(Grant.typeJWT, Grant.jwt pairLib)] }

def pairReq (a : GoStr) : Req := Sample.postAssertion b!"tok" [(b!"grant_type", Grant.typeJWT), (b!"assertion", a), (b!"scope", b!"openid")]

/-- One request presents two assertions, the other one twice. -/
def pairThreads : Nat → Prog Unit
  | 1 => handler pairCfg pairLib (pairReq b!"tok2")
  | 2 => handler pairCfg pairLib (pairReq b!"tok")
  | _ => .ret ()

theorem recordingDet_once (sch : List Nat) (th : Nat → Prog Unit) :
    RecordsOnce (schedule recordingDet sch th (emptyStore, [])).1 := by
  let st : StoreState × List (GoStr × GoStr) → Event → StoreState × List (GoStr × GoStr) → Prop :=
    fun s e s' => recordingDet s e.q = some (e.r, s')
  refine C21_recording_store (st := st) (seen := fun s cid jti => (cid, jti) ∈ s.2) ?_ ?_
    (schedule_chain (st := st) (fun _ _ _ _ h => h) _ _ _)
  · rintro s ⟨q, r⟩ s' cid jti h hk
    simp only [st] at h
    unfold recordingDet at h
    split at h
    · split at h <;> cases h
      · exact hk
      · exact List.mem_cons_of_mem _ hk
    · cases h; exact hk
    · cases h; exact hk
    · split at h <;> cases h
      exact hk
  · intro s cid jti n m s' h
    simp only [st, recordingDet] at h
    split at h
    · cases h
    · rename_i hn
      cases h
      exact ⟨hn, List.mem_cons_self⟩

/-- The hypotheses of C125 are met by a request that is granted; the request that uses one assertion twice is refused (and is
granted by the sample world, whose store does not record). -/
example : RecordsOnce (schedule recordingDet (List.replicate 20 1) pairThreads (emptyStore, [])).1 ∧
    Registered pairCfg (pairReq b!"tok2") (Grant.jwt pairLib) ∧
    (∀ cid sec b, ¬ Presented pairCfg.acceptance (pairReq b!"tok2") cid sec b) ∧ PresentedAssertion (pairReq b!"tok2") b!"tok" ∧
    (∃ resp, (1, wrote resp) ∈ (schedule recordingDet (List.replicate 20 1) pairThreads (emptyStore, [])).1 ∧ resp.status = 200) ∧
    (∃ resp, (2, wrote resp) ∈ (schedule recordingDet (List.replicate 20 2) pairThreads (emptyStore, [])).1 ∧ resp.status = 400) ∧
    ({} : Sample.World).status (handler pairCfg pairLib (pairReq b!"tok")) = some 200 :=
  ⟨recordingDet_once _ _, rfl, findClientCredential_none.1 (by decide +kernel),
    ⟨by decide +kernel, by decide +kernel, by decide +kernel⟩, answered_mem (by decide +kernel), answered_mem (by decide +kernel),
    by decide +kernel⟩

end Goidc.Props
