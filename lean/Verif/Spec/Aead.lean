import Verif.Model.Prims
/-
Specification of an AEAD built from a stream cipher and a MAC, on flat byte strings
(RFC 5116 interface; NIST SP 800-38D section 7, RFC 8439 section 2.8).
-/
namespace S2A.Spec

/-- XOR byte `i` of the data with byte `i` of the key stream. -/
def stream (ks : Nat → UInt8) (data : Bytes) : Bytes :=
  data.mapIdx fun i b => b ^^^ ks i

/-- AEAD encryption: ciphertext followed by the 16-byte tag. -/
def aeadSeal (L : Lib) (alg : Alg) (key nonce aad pt : Bytes) : Bytes :=
  let ct := stream (L.ks alg key nonce) pt
  ct ++ L.mac alg key nonce aad ct

/-- AEAD decryption: the last 16 bytes must be the tag of the rest. -/
def aeadOpen (L : Lib) (alg : Alg) (key nonce aad c : Bytes) : Option Bytes :=
  if c.length < 16 then none
  else
    let ct := c.take (c.length - 16)
    if L.mac alg key nonce aad ct = c.drop (c.length - 16) then
      some (stream (L.ks alg key nonce) ct)
    else none

/-- The contents of the first buffers of the list, as many as have room for all their bytes. -/
def fitting : (room : Nat) → List Iovec → Bytes
  | _, [] => []
  | room, v :: vs => if v.len ≤ room then v.bytes ++ fitting (room - v.len) vs else []

end S2A.Spec
