import Verif.Lemmas.Clock
import Verif.Lemmas.EndToEndSample

/-! # Sample executions on the reference store, with a clock -/

namespace Goidc.Sample

open Spec TokenEndpoint Props StoreState

/-- The reference store with a clock that advances by `tick` between the calls. -/
def clockDet (tick : Int64) (s : StoreState × Int64) (q : Query) : Option (q.Resp × (StoreState × Int64)) :=
  match s.1.det s.2 q with
  | some (r, s') => if s.2 ≤ s.2 + tick then some (r, (s', s.2 + tick)) else none
  | none => none

/-- One call answered by the store and the clock. -/
def ClockStep (tick : Int64) (s : StoreState × Int64) (e : Event) (s' : StoreState × Int64) : Prop :=
  s.1.stepAt s.2 s.2 e.q e.r s'.1 ∧ s.2 ≤ s'.2 ∧ s'.2 = s.2 + tick

theorem det_stepAt {clk : Int64} {s s' : StoreState} {q : Query} {r : q.Resp} (h : s.det clk q = some (r, s')) :
    s.stepAt clk clk q r s' := by
  have hs : s.step q r s' := det_step h
  cases q <;> simp only [stepAt] <;> simp only [det] at h
  case createOAuthToken info b =>
    cases info with
    | none => cases h
    | some info =>
      simp only [Option.some.injEq, Prod.mk.injEq] at h
      exact ⟨h.1.symm, h.2.symm⟩
  case refreshAccessToken info old =>
    split at h
    · rename_i t ht
      simp only [Option.some.injEq, Prod.mk.injEq] at h
      exact ⟨t, ht, h.1.symm, h.2.symm⟩
    · cases h
  case now => simp only [Option.some.injEq, Prod.mk.injEq] at h; exact ⟨h.1.symm, h.2.symm⟩
  case wallNow => simp only [Option.some.injEq, Prod.mk.injEq] at h; exact ⟨h.1.symm, h.2.symm⟩
  all_goals exact hs

theorem clockDet_step {tick : Int64} (s : StoreState × Int64) (q : Query) (r : q.Resp) (s' : StoreState × Int64)
    (h : clockDet tick s q = some (r, s')) : ClockStep tick s ⟨q, r⟩ s' := by
  unfold clockDet at h
  split at h
  · rename_i r' m hm
    split at h
    · rename_i hle
      simp only [Option.some.injEq, Prod.mk.injEq] at h
      obtain ⟨rfl, rfl⟩ := h
      exact ⟨det_stepAt hm, hle, rfl⟩
    · cases h
  · cases h

theorem chain_clock {tick : Int64} {s s' : StoreState × Int64} {t : List Event} (h : Chain (ClockStep tick) s t s') :
    ClockRun s.1 s.2 t s'.2 s'.1 ∧ s'.2 = t.foldl (fun n _ => n + tick) s.2 := by
  induction h with
  | nil => exact ⟨.nil (Int64.le_refl _), rfl⟩
  | cons h1 _ ih =>
    obtain ⟨h2, h3, h4⟩ := h1
    exact ⟨.cons (Int64.le_refl _) (Int64.le_refl _) h2 (clock_from h3 ih.1), by rw [ih.2, h4]; rfl⟩

/-- A client obtains a token with the password of the user; the token is used, and refreshed. -/
def lifeThreads : Nat → Prog Unit
  | 0 => closed (ResourceProtector.validate protectorCfg lib bearerReq) (fun x => !x.1)
  | 1 => handler tokenCfg lib (post
      [(b!"grant_type", b!"password"), (b!"username", b!"u"), (b!"password", b!"p"), (b!"scope", b!"openid offline_access")])
  | 2 => closed (ResourceProtector.validate protectorCfg lib bearerReq) (fun _ => true)
  | 3 => handler tokenCfg lib (post rtBody)
  | _ => .ret ()

/-- The same requests. -/
def lifeEndpoints : Nat → Thread
  | 0 => ⟨ResourceProtector.validate protectorCfg lib bearerReq⟩
  | 1 => ⟨handler tokenCfg lib (post
      [(b!"grant_type", b!"password"), (b!"username", b!"u"), (b!"password", b!"p"), (b!"scope", b!"openid offline_access")])⟩
  | 2 => ⟨ResourceProtector.validate protectorCfg lib bearerReq⟩
  | 3 => ⟨handler tokenCfg lib (post rtBody)⟩
  | _ => ⟨(.ret () : Prog Unit)⟩

/-- An unknown token is presented, a token is obtained, and request `k` is made. -/
def lifeSchedule (k : Nat) : List Nat := List.replicate 20 0 ++ List.replicate 20 1 ++ List.replicate 20 k

def lifeRun (tick : Int64) (k : Nat) : List (Nat × Event) × (StoreState × Int64) :=
  schedule (clockDet tick) (lifeSchedule k) lifeThreads (webStart, 1000)

theorem life_interleaves (tick : Int64) (k : Nat) : Interleaves lifeEndpoints (lifeRun tick k).1 := by
  intro i
  have h := schedule_interleaves (clockDet tick) (lifeSchedule k) lifeThreads (webStart, 1000) i
  match i with
  | 0 => exact closed_steps h
  | 1 => exact h
  | 2 => exact closed_steps h
  | 3 => exact h
  | _ + 4 => exact h

theorem life_chain (tick : Int64) (k : Nat) : Chain (ClockStep tick) (webStart, 1000) ((lifeRun tick k).1.map (·.2)) (lifeRun tick k).2 :=
  schedule_chain clockDet_step (lifeSchedule k) lifeThreads (webStart, 1000)

/-- The run in three parts. -/
theorem life_parts {tick : Int64} {k : Nat} {a b c : List (Nat × Event)} (h : (lifeRun tick k).1 = a ++ b ++ c) :
    ∃ T1 T2 T3 s1 s2 s3, ClockRun webStart 1000 (a.map (·.2)) T1 s1 ∧ ClockRun s1 T1 (b.map (·.2)) T2 s2 ∧
      ClockRun s2 T2 (c.map (·.2)) T3 s3 ∧ T1 = a.foldl (fun n _ => n + tick) 1000 ∧
      T2 = (a ++ b).foldl (fun n _ => n + tick) 1000 ∧ T3 = (a ++ b ++ c).foldl (fun n _ => n + tick) 1000 ∧
      s3 = (lifeRun tick k).2.1 := by
  have hc := life_chain tick k
  rw [h, List.map_append, List.map_append] at hc
  obtain ⟨m2, hc, h3⟩ := chain_append.1 hc
  obtain ⟨m1, h1, h2⟩ := chain_append.1 hc
  obtain ⟨k1, e1⟩ := chain_clock h1
  obtain ⟨k2, e2⟩ := chain_clock h2
  obtain ⟨k3, e3⟩ := chain_clock h3
  rw [List.foldl_map] at e1 e2 e3
  refine ⟨m1.2, m2.2, _, m1.1, m2.1, _, k1, k2, k3, e1, ?_, ?_, rfl⟩
  · rw [e2, e1, List.foldl_append]
  · rw [e3, e2, e1, List.foldl_append, List.foldl_append]

end Goidc.Sample
