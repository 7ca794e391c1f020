import Verif.Model.Prims
/-
The algorithms TLS 1.3 uses here, from their standards and apart from the code: SHA-256 and SHA-384
(FIPS 180-4), HMAC (RFC 2104), AES (FIPS 197), GCM (NIST SP 800-38D) with nonces of 96 bits,
ChaCha20 and Poly1305 (RFC 8439).  Words are natural numbers, so that the kernel can compute with
them.
-/
namespace S2A.Spec.Std

/-- `k n`, with `n` computed first. -/
def force {α : Type} (n : Nat) (k : Nat → α) : α :=
  match n with
  | 0 => k 0
  | m + 1 => k (m + 1)

theorem force_eq {α : Type} (n : Nat) (k : Nat → α) : force n k = k n := by
  cases n <;> rfl

/-- A number as `n` bytes, the most significant first. -/
def toBE (n x : Nat) : Bytes :=
  force x fun x => (List.range n).map fun i => UInt8.ofNat (x >>> (8 * (n - 1 - i)))

/-- A number as `n` bytes, the least significant first. -/
def toLE (n x : Nat) : Bytes :=
  force x fun x => (List.range n).map fun i => UInt8.ofNat (x >>> (8 * i))

/-- The number some bytes stand for, the most significant first. -/
def ofBE (b : Bytes) : Nat := b.foldl (fun a x => a * 256 + x.toNat) 0

/-- The number some bytes stand for, the least significant first. -/
def ofLE (b : Bytes) : Nat := b.foldr (fun x a => a * 256 + x.toNat) 0

/-- Cut into pieces of `n` bytes; the last may be shorter. -/
def chunks (n : Nat) : (fuel : Nat) → Bytes → List Bytes
  | 0, _ => []
  | fuel + 1, b => if b = [] then [] else b.take n :: chunks n fuel (b.drop n)

/-! ### SHA-2 (FIPS 180-4) -/

/-- What SHA-256 and SHA-512/SHA-384 differ in. -/
structure Sha2 where
  bits : Nat
  bigS0 : Nat × Nat × Nat
  bigS1 : Nat × Nat × Nat
  smallS0 : Nat × Nat × Nat
  smallS1 : Nat × Nat × Nat
  k : List Nat
  iv : List Nat
  out : Nat

/-- SHA-256 (sections 4.1.2, 4.2.2, 5.3.3). -/
def sha256 : Sha2 where
  bits := 32
  bigS0 := (2, 13, 22)
  bigS1 := (6, 11, 25)
  smallS0 := (7, 18, 3)
  smallS1 := (17, 19, 10)
  k := [
    0x428a2f98, 0x71374491, 0xb5c0fbcf, 0xe9b5dba5, 0x3956c25b, 0x59f111f1,
    0x923f82a4, 0xab1c5ed5, 0xd807aa98, 0x12835b01, 0x243185be, 0x550c7dc3,
    0x72be5d74, 0x80deb1fe, 0x9bdc06a7, 0xc19bf174, 0xe49b69c1, 0xefbe4786,
    0x0fc19dc6, 0x240ca1cc, 0x2de92c6f, 0x4a7484aa, 0x5cb0a9dc, 0x76f988da,
    0x983e5152, 0xa831c66d, 0xb00327c8, 0xbf597fc7, 0xc6e00bf3, 0xd5a79147,
    0x06ca6351, 0x14292967, 0x27b70a85, 0x2e1b2138, 0x4d2c6dfc, 0x53380d13,
    0x650a7354, 0x766a0abb, 0x81c2c92e, 0x92722c85, 0xa2bfe8a1, 0xa81a664b,
    0xc24b8b70, 0xc76c51a3, 0xd192e819, 0xd6990624, 0xf40e3585, 0x106aa070,
    0x19a4c116, 0x1e376c08, 0x2748774c, 0x34b0bcb5, 0x391c0cb3, 0x4ed8aa4a,
    0x5b9cca4f, 0x682e6ff3, 0x748f82ee, 0x78a5636f, 0x84c87814, 0x8cc70208,
    0x90befffa, 0xa4506ceb, 0xbef9a3f7, 0xc67178f2]
  iv := [
    0x6a09e667, 0xbb67ae85, 0x3c6ef372, 0xa54ff53a, 0x510e527f, 0x9b05688c,
    0x1f83d9ab, 0x5be0cd19]
  out := 32

/-- SHA-384 (sections 4.1.3, 4.2.3, 5.3.4). -/
def sha384 : Sha2 where
  bits := 64
  bigS0 := (28, 34, 39)
  bigS1 := (14, 18, 41)
  smallS0 := (1, 8, 7)
  smallS1 := (19, 61, 6)
  k := [
    0x428a2f98d728ae22, 0x7137449123ef65cd, 0xb5c0fbcfec4d3b2f, 0xe9b5dba58189dbbc,
    0x3956c25bf348b538, 0x59f111f1b605d019, 0x923f82a4af194f9b, 0xab1c5ed5da6d8118,
    0xd807aa98a3030242, 0x12835b0145706fbe, 0x243185be4ee4b28c, 0x550c7dc3d5ffb4e2,
    0x72be5d74f27b896f, 0x80deb1fe3b1696b1, 0x9bdc06a725c71235, 0xc19bf174cf692694,
    0xe49b69c19ef14ad2, 0xefbe4786384f25e3, 0x0fc19dc68b8cd5b5, 0x240ca1cc77ac9c65,
    0x2de92c6f592b0275, 0x4a7484aa6ea6e483, 0x5cb0a9dcbd41fbd4, 0x76f988da831153b5,
    0x983e5152ee66dfab, 0xa831c66d2db43210, 0xb00327c898fb213f, 0xbf597fc7beef0ee4,
    0xc6e00bf33da88fc2, 0xd5a79147930aa725, 0x06ca6351e003826f, 0x142929670a0e6e70,
    0x27b70a8546d22ffc, 0x2e1b21385c26c926, 0x4d2c6dfc5ac42aed, 0x53380d139d95b3df,
    0x650a73548baf63de, 0x766a0abb3c77b2a8, 0x81c2c92e47edaee6, 0x92722c851482353b,
    0xa2bfe8a14cf10364, 0xa81a664bbc423001, 0xc24b8b70d0f89791, 0xc76c51a30654be30,
    0xd192e819d6ef5218, 0xd69906245565a910, 0xf40e35855771202a, 0x106aa07032bbd1b8,
    0x19a4c116b8d2d0c8, 0x1e376c085141ab53, 0x2748774cdf8eeb99, 0x34b0bcb5e19b48a8,
    0x391c0cb3c5c95a63, 0x4ed8aa4ae3418acb, 0x5b9cca4f7763e373, 0x682e6ff3d6b2b8a3,
    0x748f82ee5defb2fc, 0x78a5636f43172f60, 0x84c87814a1f0ab72, 0x8cc702081a6439ec,
    0x90befffa23631e28, 0xa4506cebde82bde9, 0xbef9a3f7b2c67915, 0xc67178f2e372532b,
    0xca273eceea26619c, 0xd186b8c721c0c207, 0xeada7dd6cde0eb1e, 0xf57d4f7fee6ed178,
    0x06f067aa72176fba, 0x0a637dc5a2c898a6, 0x113f9804bef90dae, 0x1b710b35131c471b,
    0x28db77f523047d84, 0x32caab7b40c72493, 0x3c9ebe0a15c9bebc, 0x431d67c49c100d4c,
    0x4cc5d4becb3e42b6, 0x597f299cfc657e2a, 0x5fcb6fab3ad6faec, 0x6c44198c4a475817]
  iv := [
    0xcbbb9d5dc1059ed8, 0x629a292a367cd507, 0x9159015a3070dd17, 0x152fecd8f70e5939,
    0x67332667ffc00b31, 0x8eb44a8768581511, 0xdb0c2e0d64f98fa7, 0x47b5481dbefa4fa4]
  out := 48

namespace Sha2
variable (p : Sha2)

/-- Rotation to the right (section 3.2). -/
def rotr (x r : Nat) : Nat := (x >>> r) ||| ((x <<< (p.bits - r)) % 2 ^ p.bits)

/-- The capital sigma functions. -/
def big (s : Nat × Nat × Nat) (x : Nat) : Nat := p.rotr x s.1 ^^^ p.rotr x s.2.1 ^^^ p.rotr x s.2.2

/-- The small sigma functions. -/
def small (s : Nat × Nat × Nat) (x : Nat) : Nat := p.rotr x s.1 ^^^ p.rotr x s.2.1 ^^^ (x >>> s.2.2)

/-- The message schedule from its last 16 words (section 6.2.2, step 1). -/
def schedule : (rounds : Nat) → List Nat → List Nat
  | 0, _ => []
  | n + 1, w =>
    force ((p.small p.smallS1 (w.getD 14 0) + w.getD 9 0 + p.small p.smallS0 (w.getD 1 0) +
      w.getD 0 0) % 2 ^ p.bits) fun x => w.getD 0 0 :: schedule n (w.drop 1 ++ [x])

/-- The rounds (section 6.2.2, step 3). -/
def rounds : List (Nat × Nat) → (a b c d e f g h : Nat) → List Nat
  | [], a, b, c, d, e, f, g, h => [a, b, c, d, e, f, g, h]
  | (k, w) :: kw, a, b, c, d, e, f, g, h =>
    force (h + p.big p.bigS1 e + ((e &&& f) ^^^ ((2 ^ p.bits - 1 - e) &&& g)) + k + w) fun t1 =>
    force (p.big p.bigS0 a + ((a &&& b) ^^^ (a &&& c) ^^^ (b &&& c))) fun t2 =>
    force ((d + t1) % 2 ^ p.bits) fun e' =>
    force ((t1 + t2) % 2 ^ p.bits) fun a' => rounds kw a' a b c e' e f g

/-- One block (section 6.2.2). -/
def block (h : List Nat) (m : Bytes) : List Nat :=
  let w := p.schedule p.k.length ((chunks (p.bits / 8) 16 m).map ofBE)
  let r := p.rounds (p.k.zip w) (h.getD 0 0) (h.getD 1 0) (h.getD 2 0) (h.getD 3 0) (h.getD 4 0)
    (h.getD 5 0) (h.getD 6 0) (h.getD 7 0)
  (h.zip r).map fun x => (x.1 + x.2) % 2 ^ p.bits

/-- Bytes of a block. -/
def blockSize : Nat := 2 * p.bits

/-- Padding (section 5.1): a one bit, zeros, the number of bits. -/
def pad (m : Bytes) : Bytes :=
  let l := p.bits / 4
  m ++ [0x80] ++ List.replicate ((2 * p.blockSize - 1 - l - m.length % p.blockSize) % p.blockSize) 0 ++
    toBE l (8 * m.length)

/-- The hash of a message (section 6.2). -/
def hash (m : Bytes) : Bytes :=
  let b := p.pad m
  let h := (chunks p.blockSize b.length b).foldl p.block p.iv
  toBE p.out (h.foldl (fun a x => a <<< p.bits + x) 0 >>> (8 * p.bits - 8 * p.out))

/-- HMAC (RFC 2104, section 2). -/
def hmac (key m : Bytes) : Bytes :=
  let k := if key.length > p.blockSize then p.hash key else key
  let k := k ++ List.replicate (p.blockSize - k.length) 0
  p.hash (k.map (· ^^^ 0x5c) ++ p.hash (k.map (· ^^^ 0x36) ++ m))

end Sha2

/-! ### AES (FIPS 197) -/

/-- The S-box (figure 7), its entries one after the other. -/
def sbox : Nat :=
  0x637c777bf26b6fc53001672bfed7ab76ca82c97dfa5947f0add4a2af9ca472c0b7fd9326363ff7cc34a5e5f171d8311504c723c31896059a071280e2eb27b27509832c1a1b6e5aa0523bd6b329e32f8453d100ed20fcb15b6acbbe394a4c58cfd0efaafb434d338545f9027f503c9fa851a3408f929d38f5bcb6da2110fff3d2cd0c13ec5f974417c4a77e3d645d197360814fdc222a908846eeb814de5e0bdbe0323a0a4906245cc2d3ac629195e479e7c8376d8dd54ea96c56f4ea657aae08ba78252e1ca6b4c6e8dd741f4bbd8b8a703eb5664803f60e613557b986c11d9ee1f8981169d98e949b1e87e9ce5528df8ca1890dbfe6426841992d0fb054bb16

/-- One entry of the S-box. -/
def sub (x : Nat) : Nat := (sbox >>> (8 * (255 - x))) % 256

/-- Byte `i` of a block, of 16. -/
def byte (s i : Nat) : Nat := (s >>> (8 * (15 - i))) % 256

/-- Multiplication by x (section 4.2.1). -/
def xtime (x : Nat) : Nat := (2 * x) % 256 ^^^ x / 128 * 0x1b

/-- `SubBytes` and `ShiftRows` (sections 5.1.1, 5.1.2): the byte in row `r` and column `c`. -/
def shifted (s r c : Nat) : Nat := sub (byte s (r + 4 * ((c + r) % 4)))

/-- A column from its four bytes. -/
def word (a b c d : Nat) : Nat := a <<< 24 + b <<< 16 + c <<< 8 + d

/-- `MixColumns` of one column (section 5.1.3). -/
def mixColumn (a b c d : Nat) : Nat :=
  word (xtime a ^^^ xtime b ^^^ b ^^^ c ^^^ d) (a ^^^ xtime b ^^^ xtime c ^^^ c ^^^ d)
    (a ^^^ b ^^^ xtime c ^^^ xtime d ^^^ d) (xtime a ^^^ a ^^^ b ^^^ c ^^^ xtime d)

/-- A block from its four columns. -/
def ofColumns (f : Nat → Nat) : Nat := f 0 <<< 96 + f 1 <<< 64 + f 2 <<< 32 + f 3

/-- The rounds from the second on: `MixColumns` in all but the last. -/
def aesRounds : List Nat → Nat → Nat
  | [], s => s
  | [k], s =>
    ofColumns (fun c => word (shifted s 0 c) (shifted s 1 c) (shifted s 2 c) (shifted s 3 c)) ^^^ k
  | k :: ks, s =>
    force (ofColumns (fun c =>
      mixColumn (shifted s 0 c) (shifted s 1 c) (shifted s 2 c) (shifted s 3 c)) ^^^ k) (aesRounds ks)

/-- `SubWord` (section 5.2). -/
def subWord (w : Nat) : Nat :=
  word (sub (w >>> 24)) (sub (w >>> 16 % 256)) (sub (w >>> 8 % 256)) (sub (w % 256))

/-- `RotWord` (section 5.2). -/
def rotWord (w : Nat) : Nat := (w <<< 8) % 2 ^ 32 + w >>> 24

/-- The key schedule from its last words (section 5.2); `i` counts them and `r` is the round
constant. -/
def expand : (n i r : Nat) → List Nat → List Nat
  | 0, _, _, _ => []
  | n + 1, i, r, w =>
    let nk := w.length
    let last := w.getD (nk - 1) 0
    let t := if i % nk = 0 then subWord (rotWord last) ^^^ r <<< 24
      else if nk > 6 ∧ i % nk = 4 then subWord last else last
    force (w.getD 0 0 ^^^ t) fun x =>
      w.getD 0 0 :: expand n (i + 1) (if i % nk = 0 then xtime r else r) (w.drop 1 ++ [x])

/-- Round keys of 128 bits. -/
def group4 : List Nat → List Nat
  | a :: b :: c :: d :: ws => ofColumns (fun | 0 => a | 1 => b | 2 => c | _ => d) :: group4 ws
  | _ => []

/-- The round keys for a key of 16 or 32 bytes. -/
def roundKeys (key : Bytes) : List Nat :=
  group4 (expand (key.length + 28) (key.length / 4) 1 ((chunks 4 8 key).map ofBE))

/-- AES (section 5.1). -/
def aes (key : Bytes) (x : Nat) : Nat :=
  match roundKeys key with
  | [] => 0
  | k :: ks => force (x ^^^ k) (aesRounds ks)

/-! ### GCM (SP 800-38D) -/

/-- Multiplication of blocks (section 6.3), from bit `n - 1` of `x` on. -/
def gmul : (n x z v : Nat) → Nat
  | 0, _, z, _ => z
  | n + 1, x, z, v =>
    force (z ^^^ v * (x >>> n % 2)) fun z' =>
    force (v >>> 1 ^^^ (v % 2) * (0xe1 <<< 120)) fun v' => gmul n x z' v'

/-- Zeros up to a multiple of 16 bytes. -/
def pad16 (b : Bytes) : Bytes := b ++ List.replicate ((16 - b.length % 16) % 16) 0

/-- GHASH (section 6.4). -/
def ghash (h : Nat) (b : Bytes) : Nat :=
  (chunks 16 b.length b).foldl (fun y c => force (y ^^^ ofBE c) fun x => gmul 128 x 0 h) 0

/-- The counter block `i` for a nonce of 96 bits (section 7.1: 1 for the tag, 2 and on for the
data). -/
def counterBlock (nonce : Bytes) (i : Nat) : Nat := ofBE nonce <<< 32 + i % 2 ^ 32

/-- Byte `i` of the key stream (section 7.1, step 3). -/
def gcmKs (key nonce : Bytes) (i : Nat) : UInt8 :=
  force (i / 16) fun b => UInt8.ofNat (byte (aes key (counterBlock nonce (2 + b))) (i % 16))

/-- The tag (section 7.1, steps 4-6). -/
def gcmTag (key nonce aad ct : Bytes) : Bytes :=
  force (aes key 0) fun h =>
    toBE 16 (ghash h (pad16 aad ++ pad16 ct ++ toBE 8 (8 * aad.length) ++ toBE 8 (8 * ct.length)) ^^^
      aes key (counterBlock nonce 1))

/-! ### ChaCha20 and Poly1305 (RFC 8439) -/

/-- Addition of words. -/
def add32 (a b : Nat) : Nat := (a + b) % 2 ^ 32

/-- Rotation of a word to the left. -/
def rotl (x n : Nat) : Nat := (x <<< n) % 2 ^ 32 + x >>> (32 - n)

/-- The quarter round (section 2.1), passed to the rest of the computation. -/
def quarter {α : Type} (a b c d : Nat) (k : Nat → Nat → Nat → Nat → α) : α :=
  force (add32 a b) fun a => force (rotl (d ^^^ a) 16) fun d =>
  force (add32 c d) fun c => force (rotl (b ^^^ c) 12) fun b =>
  force (add32 a b) fun a => force (rotl (d ^^^ a) 8) fun d =>
  force (add32 c d) fun c => force (rotl (b ^^^ c) 7) fun b => k a b c d

/-- Pairs of a column round and a diagonal round (section 2.3). -/
def doubleRounds : (n : Nat) →
    (x0 x1 x2 x3 x4 x5 x6 x7 x8 x9 x10 x11 x12 x13 x14 x15 : Nat) → List Nat
  | 0, x0, x1, x2, x3, x4, x5, x6, x7, x8, x9, x10, x11, x12, x13, x14, x15 =>
    [x0, x1, x2, x3, x4, x5, x6, x7, x8, x9, x10, x11, x12, x13, x14, x15]
  | n + 1, x0, x1, x2, x3, x4, x5, x6, x7, x8, x9, x10, x11, x12, x13, x14, x15 =>
    quarter x0 x4 x8 x12 fun x0 x4 x8 x12 => quarter x1 x5 x9 x13 fun x1 x5 x9 x13 =>
    quarter x2 x6 x10 x14 fun x2 x6 x10 x14 => quarter x3 x7 x11 x15 fun x3 x7 x11 x15 =>
    quarter x0 x5 x10 x15 fun x0 x5 x10 x15 => quarter x1 x6 x11 x12 fun x1 x6 x11 x12 =>
    quarter x2 x7 x8 x13 fun x2 x7 x8 x13 => quarter x3 x4 x9 x14 fun x3 x4 x9 x14 =>
    doubleRounds n x0 x1 x2 x3 x4 x5 x6 x7 x8 x9 x10 x11 x12 x13 x14 x15

/-- The block function (section 2.3), as 64 bytes read as a number. -/
def chachaBlock (key nonce : Bytes) (counter : Nat) : Nat :=
  let k := (chunks 4 8 key).map ofLE
  let n := (chunks 4 3 nonce).map ofLE
  let s := [0x61707865, 0x3320646e, 0x79622d32, 0x6b206574] ++ k ++ [counter % 2 ^ 32] ++ n
  let x := doubleRounds 10 (s.getD 0 0) (s.getD 1 0) (s.getD 2 0) (s.getD 3 0) (s.getD 4 0)
    (s.getD 5 0) (s.getD 6 0) (s.getD 7 0) (s.getD 8 0) (s.getD 9 0) (s.getD 10 0) (s.getD 11 0)
    (s.getD 12 0) (s.getD 13 0) (s.getD 14 0) (s.getD 15 0)
  ((s.zip x).map fun y => add32 y.1 y.2).foldr (fun w a => a <<< 32 + w) 0

/-- Byte `i` of the key stream (section 2.8: from block 1 on). -/
def chachaKs (key nonce : Bytes) (i : Nat) : UInt8 :=
  force (i / 64) fun b => UInt8.ofNat (chachaBlock key nonce (1 + b) >>> (8 * (i % 64)))

/-- Poly1305 (section 2.5) of a number of 32 bytes, `r` in the lower half. -/
def poly1305 (key : Nat) (b : Bytes) : Bytes :=
  force (key % 2 ^ 128 &&& 0x0ffffffc0ffffffc0ffffffc0fffffff) fun r =>
    toLE 16 ((chunks 16 b.length b).foldl
      (fun a c => force ((a + ofLE c + 2 ^ (8 * c.length)) * r % (2 ^ 130 - 5)) id) 0 +
        key / 2 ^ 128 % 2 ^ 128)

/-- The tag (section 2.8). -/
def chachaTag (key nonce aad ct : Bytes) : Bytes :=
  force (chachaBlock key nonce 0 % 2 ^ 256) fun k =>
    poly1305 k (pad16 aad ++ pad16 ct ++ toLE 8 aad.length ++ toLE 8 ct.length)

end S2A.Spec.Std
