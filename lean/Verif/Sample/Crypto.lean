import Verif.Sample.Sha2
import Verif.Model.Jws
import Verif.Lemmas.Decimal

/-!
# The primitives behind HS256/384/512 and RS256/384/512, to be evaluated by the kernel

Used only by examples: no theorem depends on it.  The other algorithms are randomised and left out.
-/

namespace Goidc.Crypto

open Sha2

/-- An RSA key as key material: the modulus, then the private exponent, in `size` bytes each. -/
def rsaKey (size n d : Nat) : GoStr := bytes size n ++ bytes size d

/-- `b ^ e % m`; `fuel` bounds the bits of `e`. -/
def powMod (m : Nat) : Nat → Nat → Nat → Nat
  | 0, _, _ => 1 % m
  | fuel + 1, b, e =>
    if e = 0 then 1 % m
    else force (b * b % m) fun b2 => force (powMod m fuel b2 (e / 2)) fun x => if e % 2 = 1 then x * b % m else x

/-- The hash function of an algorithm and the DER prefix of its digests (RFC 8017, 9.2). -/
def hashOf (alg : GoStr) : Option ((GoStr → GoStr) × Nat × Nat × GoStr) :=
  if alg = b!"HS256" ∨ alg = b!"RS256" then some (sha256, 64, 32, bytes 19 0x3031300d060960864801650304020105000420)
  else if alg = b!"HS384" ∨ alg = b!"RS384" then some (sha384, 128, 48, bytes 19 0x3041300d060960864801650304020205000430)
  else if alg = b!"HS512" ∨ alg = b!"RS512" then some (sha512, 128, 64, bytes 19 0x3051300d060960864801650304020305000440)
  else none

/-- RSASSA-PKCS1-v1_5 (RFC 8017, 8.2.1), from the digest with its prefix. -/
def rsaSign (key digestInfo : GoStr) : GoStr :=
  let size := key.length / 2
  let em := [0, 1] ++ List.replicate (size - 3 - digestInfo.length) 255 ++ 0 :: digestInfo
  bytes size (powMod (number (key.take size)) (8 * size) (number em) (number (key.drop size)))

/-- The signature. -/
def signature (alg key msg : GoStr) : GoStr :=
  match hashOf alg with
  | some (hash, blk, _, pre) =>
    if alg.head? = some 72 then hmac hash blk key msg
    else rsaSign key (pre ++ hash msg)
  | none => []

/-- The algorithms that are there; an RSA key must be long enough. -/
def signOk (alg key : GoStr) : Bool :=
  match hashOf alg with
  | some (_, _, len, pre) => alg.head? = some 72 || decide (pre.length + len + 11 ≤ key.length / 2)
  | none => alg = b!"none"

/-- The primitives.  A signature is checked by making it again: both schemes are deterministic, and a
number has one RSA signature.  Numbers are integers only. -/
def prims : Prims where
  sha256 := sha256
  sha384 := sha384
  sha512 := sha512
  sha256_length := sha256_length
  sha384_length := sha384_length
  sha512_length := sha512_length
  isPrint _ := true
  urlParseOk _ := true
  float := atoi
  float_int n _ _ := atoi_itoa n
  float_some n := by rw [atoi_itoa n]; rfl
  signOk := signOk
  signature := signature
  verify alg k m sig := sig == signature alg k m
  verify_signature := by simp

end Goidc.Crypto
