import Verif.Spec.Jwt
import Verif.Lemmas.Int64

/-! # The checks of the JWT library -/

namespace Goidc

open Spec

theorem family_hmac {alg : GoStr} : Jwt.family alg = some .hmac ↔ alg ∈ hmacAlgs := by
  unfold Jwt.family hmacAlgs
  repeat' split
  all_goals simp_all

theorem family_rsa {alg : GoStr} : (Jwt.family alg = some .rsa ∨ Jwt.family alg = some .rsaPss) ↔ alg ∈ rsaAlgs := by
  unfold Jwt.family rsaAlgs
  repeat' split
  all_goals simp_all
  all_goals grind

theorem family_ecdsa {alg : GoStr} : Jwt.family alg = some .ecdsa ↔ alg ∈ ecAlgs := by
  unfold Jwt.family ecAlgs
  repeat' split
  all_goals simp_all
  all_goals grind

theorem family_noneAlg {alg : GoStr} : Jwt.family alg = some .none ↔ alg = b!"none" := by
  unfold Jwt.family
  repeat' split
  all_goals simp_all
  all_goals grind

theorem family_known {alg : GoStr} : (∃ fam, Jwt.family alg = some fam) ↔ alg ∈ knownAlgs := by
  unfold knownAlgs
  simp only [List.mem_append, ← family_hmac, ← family_rsa, ← family_ecdsa, List.mem_singleton, ← family_noneAlg]
  constructor
  · rintro ⟨fam, h⟩
    cases fam <;> simp [h]
  · rintro (((h | h | h) | h) | h) <;> exact ⟨_, h⟩

theorem verifies_iff {lib : Lib} {alg tok : GoStr} {k : Key} : Jwt.verifies lib alg tok k = true ↔ SignatureOk lib alg tok k := by
  unfold Jwt.verifies SignatureOk
  cases k <;> simp [← family_hmac, ← family_rsa, ← family_ecdsa, ← family_noneAlg]

theorem expOk_iff {now : Int64} {v : Option JVal} : Jwt.expOk now v = true ↔ NotExpired now v := by
  unfold NotExpired IsTime
  cases v with
  | none => simp [Jwt.expOk]
  | some v =>
    cases v with
    | float n => simp [Jwt.expOk, Int64.le_iff_toInt_le]
    | number n => cases n <;> simp [Jwt.expOk, Int64.le_iff_toInt_le]
    | str s => simp [Jwt.expOk]
    | other => simp [Jwt.expOk]

theorem notBeforeOk_iff {now : Int64} {v : Option JVal} : Jwt.notBeforeOk now v = true ↔ NotEarly now v := by
  unfold NotEarly IsTime
  cases v with
  | none => simp [Jwt.notBeforeOk]
  | some v =>
    cases v with
    | float n => simp [Jwt.notBeforeOk, Int64.le_iff_toInt_le]
    | number n => cases n <;> simp [Jwt.notBeforeOk, Int64.le_iff_toInt_le]
    | str s => simp [Jwt.notBeforeOk]
    | other => simp [Jwt.notBeforeOk]

end Goidc
