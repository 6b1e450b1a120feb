import Verif.Spec.Http

/-! # Specification: which responses a cache may keep (RFC 9111, RFC 9110 section 15.1) -/

namespace Goidc.Spec

/-- The status codes a cache may store a response with on its own account. -/
def cacheableStatus : List Nat := [200, 203, 204, 206, 300, 301, 308, 404, 405, 410, 414, 501]

/-- The headers that say how long a response may be kept. -/
def freshnessHeaders : List GoStr := [b!"cache-control", b!"expires", b!"pragma"]

/-- No cache keeps this response: it forbids storing it, or its status is not one to be stored and nothing in it says
otherwise. -/
def NotKept (resp : HttpResp) : Prop :=
  (∃ v, (b!"Cache-Control", v) ∈ resp.headers ∧ (v = b!"no-store" ∨ v = b!"no-cache, no-store") ∧
    ∀ v', (b!"Cache-Control", v') ∈ resp.headers → v' = v) ∨
  (resp.status ∉ cacheableStatus ∧ ∀ kv ∈ resp.headers, toLower kv.1 ∉ freshnessHeaders)

end Goidc.Spec
