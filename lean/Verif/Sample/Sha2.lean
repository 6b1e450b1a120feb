import Verif.Model.GoStr

/-!
# SHA-2 (FIPS 180-4), to be evaluated by the kernel

Used only by examples: no theorem depends on it.  The theorems hold for any hash function.
-/

namespace Goidc.Sha2

/-- FIPS 180-4, 4.2.3; SHA-256 takes the upper halves of the first 64. -/
def k512 : List Nat :=
  [
   0x428a2f98d728ae22, 0x7137449123ef65cd, 0xb5c0fbcfec4d3b2f, 0xe9b5dba58189dbbc,
   0x3956c25bf348b538, 0x59f111f1b605d019, 0x923f82a4af194f9b, 0xab1c5ed5da6d8118,
   0xd807aa98a3030242, 0x12835b0145706fbe, 0x243185be4ee4b28c, 0x550c7dc3d5ffb4e2,
   0x72be5d74f27b896f, 0x80deb1fe3b1696b1, 0x9bdc06a725c71235, 0xc19bf174cf692694,
   0xe49b69c19ef14ad2, 0xefbe4786384f25e3, 0x0fc19dc68b8cd5b5, 0x240ca1cc77ac9c65,
   0x2de92c6f592b0275, 0x4a7484aa6ea6e483, 0x5cb0a9dcbd41fbd4, 0x76f988da831153b5,
   0x983e5152ee66dfab, 0xa831c66d2db43210, 0xb00327c898fb213f, 0xbf597fc7beef0ee4,
   0xc6e00bf33da88fc2, 0xd5a79147930aa725, 0x06ca6351e003826f, 0x142929670a0e6e70,
   0x27b70a8546d22ffc, 0x2e1b21385c26c926, 0x4d2c6dfc5ac42aed, 0x53380d139d95b3df,
   0x650a73548baf63de, 0x766a0abb3c77b2a8, 0x81c2c92e47edaee6, 0x92722c851482353b,
   0xa2bfe8a14cf10364, 0xa81a664bbc423001, 0xc24b8b70d0f89791, 0xc76c51a30654be30,
   0xd192e819d6ef5218, 0xd69906245565a910, 0xf40e35855771202a, 0x106aa07032bbd1b8,
   0x19a4c116b8d2d0c8, 0x1e376c085141ab53, 0x2748774cdf8eeb99, 0x34b0bcb5e19b48a8,
   0x391c0cb3c5c95a63, 0x4ed8aa4ae3418acb, 0x5b9cca4f7763e373, 0x682e6ff3d6b2b8a3,
   0x748f82ee5defb2fc, 0x78a5636f43172f60, 0x84c87814a1f0ab72, 0x8cc702081a6439ec,
   0x90befffa23631e28, 0xa4506cebde82bde9, 0xbef9a3f7b2c67915, 0xc67178f2e372532b,
   0xca273eceea26619c, 0xd186b8c721c0c207, 0xeada7dd6cde0eb1e, 0xf57d4f7fee6ed178,
   0x06f067aa72176fba, 0x0a637dc5a2c898a6, 0x113f9804bef90dae, 0x1b710b35131c471b,
   0x28db77f523047d84, 0x32caab7b40c72493, 0x3c9ebe0a15c9bebc, 0x431d67c49c100d4c,
   0x4cc5d4becb3e42b6, 0x597f299cfc657e2a, 0x5fcb6fab3ad6faec, 0x6c44198c4a475817]
/-- FIPS 180-4, 5.3.5; SHA-256 takes the upper halves. -/
def h512 : List Nat :=
  [
   0x6a09e667f3bcc908, 0xbb67ae8584caa73b, 0x3c6ef372fe94f82b, 0xa54ff53a5f1d36f1,
   0x510e527fade682d1, 0x9b05688c2b3e6c1f, 0x1f83d9abfb41bd6b, 0x5be0cd19137e2179]
/-- FIPS 180-4, 5.3.4 -/
def h384 : List Nat :=
  [
   0xcbbb9d5dc1059ed8, 0x629a292a367cd507, 0x9159015a3070dd17, 0x152fecd8f70e5939,
   0x67332667ffc00b31, 0x8eb44a8768581511, 0xdb0c2e0d64f98fa7, 0x47b5481dbefa4fa4]

/-- The parameters of a member of the family: the word size, the rotations and the constants. -/
structure Params where
  bits : Nat
  s0 : Nat × Nat × Nat
  s1 : Nat × Nat × Nat
  t0 : Nat × Nat × Nat
  t1 : Nat × Nat × Nat
  k : List Nat
  lenBytes : Nat

def p256 : Params where
  bits := 32
  s0 := (2, 13, 22)
  s1 := (6, 11, 25)
  t0 := (7, 18, 3)
  t1 := (17, 19, 10)
  k := (k512.take 64).map (· >>> 32)
  lenBytes := 8

def p512 : Params where
  bits := 64
  s0 := (28, 34, 39)
  s1 := (14, 18, 41)
  t0 := (1, 8, 7)
  t1 := (19, 61, 6)
  k := k512
  lenBytes := 16

/-- Rotation to the right. -/
def rotr (b n x : Nat) : Nat := (x >>> n ||| x <<< (b - n)) % 2 ^ b

/-- The capital sigmas: three rotations. -/
def big (b : Nat) (r : Nat × Nat × Nat) (x : Nat) : Nat := rotr b r.1 x ^^^ rotr b r.2.1 x ^^^ rotr b r.2.2 x

/-- The small sigmas: two rotations and a shift. -/
def small (b : Nat) (r : Nat × Nat × Nat) (x : Nat) : Nat := rotr b r.1 x ^^^ rotr b r.2.1 x ^^^ x >>> r.2.2

/-- Evaluate `x` (the kernel remembers its value), then go on. -/
def force {α : Type} (x : Nat) (k : Nat → α) : α := if x = 0 then k 0 else k x

/-- The working variables. -/
structure Vars where
  (a b c d e f g h : Nat)

/-- The rounds: `w` are the next sixteen words of the message schedule. -/
def rounds (p : Params) : List Nat → List Nat → Vars → Vars
  | k :: ks, w0 :: w, v =>
    force ((v.h + big p.bits p.s1 v.e + (v.e &&& v.f ^^^ (2 ^ p.bits - 1 - v.e) &&& v.g) + k + w0) % 2 ^ p.bits) fun t1 =>
    force ((t1 + big p.bits p.s0 v.a + (v.a &&& v.b ^^^ v.a &&& v.c ^^^ v.b &&& v.c)) % 2 ^ p.bits) fun a =>
    force ((v.d + t1) % 2 ^ p.bits) fun e =>
    force ((small p.bits p.t1 (w.getD 13 0) + w.getD 8 0 + small p.bits p.t0 (w.getD 0 0) + w0) % 2 ^ p.bits) fun w16 =>
    rounds p ks (w ++ [w16]) ⟨a, v.a, v.b, v.c, e, v.e, v.f, v.g⟩
  | _, _, v => v

/-- The hash state after a block of sixteen words. -/
def block (p : Params) (st : List Nat) (w : List Nat) : List Nat :=
  match st with
  | [a, b, c, d, e, f, g, h] =>
    let v := rounds p p.k w ⟨a, b, c, d, e, f, g, h⟩
    force ((a + v.a) % 2 ^ p.bits) fun a => force ((b + v.b) % 2 ^ p.bits) fun b =>
    force ((c + v.c) % 2 ^ p.bits) fun c => force ((d + v.d) % 2 ^ p.bits) fun d =>
    force ((e + v.e) % 2 ^ p.bits) fun e => force ((f + v.f) % 2 ^ p.bits) fun f =>
    force ((g + v.g) % 2 ^ p.bits) fun g => force ((h + v.h) % 2 ^ p.bits) fun h => [a, b, c, d, e, f, g, h]
  | _ => []

/-- The `n` low bytes of a number, the most significant one first. -/
def bytes : Nat → Nat → List UInt8
  | 0, _ => []
  | n + 1, x => UInt8.ofNat (x >>> (8 * n)) :: bytes n x

/-- The number with these bytes, the most significant one first. -/
def number (s : List UInt8) : Nat := s.foldl (fun n c => n * 256 + c.toNat) 0

/-- Padding (FIPS 180-4, 5.1). -/
def pad (p : Params) (s : List UInt8) : List UInt8 :=
  let blk := p.bits * 2
  s ++ 128 :: List.replicate ((blk - (s.length + 1 + p.lenBytes) % blk) % blk) 0 ++ bytes p.lenBytes (8 * s.length)

/-- Groups of `n` elements (`fuel` bounds their number). -/
def groups (n : Nat) : Nat → List UInt8 → List (List UInt8)
  | 0, _ => []
  | fuel + 1, s => if s = [] then [] else s.take n :: groups n fuel (s.drop n)

/-- The final state. -/
def state (p : Params) (init : List Nat) (s : List UInt8) : List Nat :=
  let ws := (groups (p.bits / 8) (s.length + 40) (pad p s)).map number
  go p init ws (s.length + 40)
where
  /-- Block after block. -/
  go (p : Params) (st ws : List Nat) : Nat → List Nat
    | 0 => st
    | fuel + 1 => if ws = [] then st else go p (block p st (ws.take 16)) (ws.drop 16) fuel

/-- The bytes of the state, `n` of them. -/
def digest (p : Params) (n : Nat) (st : List Nat) : List UInt8 :=
  bytes n (number ((st.flatMap (bytes (p.bits / 8))).take n))

def sha256 (s : List UInt8) : List UInt8 := digest p256 32 (state p256 (h512.map (· >>> 32)) s)
def sha384 (s : List UInt8) : List UInt8 := digest p512 48 (state p512 h384 s)
def sha512 (s : List UInt8) : List UInt8 := digest p512 64 (state p512 h512 s)

theorem bytes_length : ∀ n x, (bytes n x).length = n
  | 0, _ => rfl
  | n + 1, x => by simp [bytes, bytes_length n x]

theorem sha256_length (s : List UInt8) : (sha256 s).length = 32 := bytes_length _ _
theorem sha384_length (s : List UInt8) : (sha384 s).length = 48 := bytes_length _ _
theorem sha512_length (s : List UInt8) : (sha512 s).length = 64 := bytes_length _ _

/-- HMAC (RFC 2104) over a hash with blocks of `blk` bytes. -/
def hmac (hash : List UInt8 → List UInt8) (blk : Nat) (key msg : List UInt8) : List UInt8 :=
  let k := if key.length > blk then hash key else key
  let k := k ++ List.replicate (blk - k.length) 0
  hash (k.map (· ^^^ 0x5c) ++ hash (k.map (· ^^^ 0x36) ++ msg))

end Goidc.Sha2
