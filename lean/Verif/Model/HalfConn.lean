import Verif.Model.Hkdf
import Verif.Model.Aead
/-
src/record_protocol/s2a_half_connection.{h,cc}, src/record_protocol/s2a_crypter_util.cc
-/
namespace S2A

/-- `CiphersuiteToHashFunction` (src/record_protocol/s2a_crypter_util.cc:27-47); the
null check of the output pointer is dropped. -/
def ciphersuiteToHash : Ciphersuite → Except StatusCode HashFn
  | .aes128GcmSha256 => .ok .sha256
  | .aes256GcmSha384 => .ok .sha384
  | .chacha20Poly1305Sha256 => .ok .sha256
  | .other _ => .error .invalidArgument

/-- The two length bytes at the start of a label
(src/record_protocol/s2a_half_connection.cc:49-50, 70-71). -/
def labelLen (n : Nat) : Bytes := [UInt8.ofNat (n >>> 8), UInt8.ofNat n]

/-- `"\x11tls13 traffic upd\x00"` (s2a_half_connection.cc:46). -/
def updSuffix : Bytes :=
  [0x11, 0x74, 0x6c, 0x73, 0x31, 0x33, 0x20, 0x74, 0x72, 0x61, 0x66, 0x66, 0x69, 0x63,
   0x20, 0x75, 0x70, 0x64, 0x00]

/-- `key_suffix` (s2a_half_connection.cc:85-86). -/
def keySuffix : Bytes := [0x09, 0x74, 0x6c, 0x73, 0x31, 0x33, 0x20, 0x6b, 0x65, 0x79, 0x00]

/-- `nonce_suffix` (s2a_half_connection.cc:96-97). -/
def ivSuffix : Bytes := [0x08, 0x74, 0x6c, 0x73, 0x31, 0x33, 0x20, 0x69, 0x76, 0x00]

/-- `AdvanceSecret` (s2a_half_connection.cc:40-54): the secret is both the key and the
output of the derivation. -/
def advanceSecret (L : Lib) (f : HkdfFault) (cs : Ciphersuite) (secret : Bytes) :
    Exec (StatusCode × Bytes) :=
  match ciphersuiteToHash cs with
  | .error e => .ok (e, secret)
  | .ok h => Hkdf.deriveSecret L f h secret (labelLen secret.length ++ updSuffix) secret

/-- `DeriveSecret` (s2a_half_connection.cc:58-77). -/
def deriveLabel (L : Lib) (f : HkdfFault) (cs : Ciphersuite) (suffix secret output : Bytes) :
    Exec (StatusCode × Bytes) :=
  match ciphersuiteToHash cs with
  | .error e => .ok (e, output)
  | .ok h => Hkdf.deriveSecret L f h secret (labelLen output.length ++ suffix) output

/-- `DeriveKey` (s2a_half_connection.cc:81-88). -/
def deriveKey (L : Lib) (f : HkdfFault) (cs : Ciphersuite) (secret output : Bytes) :=
  deriveLabel L f cs keySuffix secret output

/-- `DeriveNonce` (s2a_half_connection.cc:92-99). -/
def deriveNonce (L : Lib) (f : HkdfFault) (cs : Ciphersuite) (secret output : Bytes) :=
  deriveLabel L f cs ivSuffix secret output

/-- Library failures during one key derivation (`Create` or `UpdateKey`).
[src/record_protocol/s2a_half_connection.cc:129-160, 207-250] -/
structure KeyFault where
  advance : HkdfFault
  key : HkdfFault
  nonce : HkdfFault
  create : Bool

/-- No failure (no counterpart in the code). -/
def KeyFault.none : KeyFault := ⟨.none, .none, .none, false⟩

/-- State of `S2AHalfConnection` (s2a_half_connection.h:78-89).  `aead_crypter_` is
never null: `Create` sets it and `UpdateKey` only replaces it by another object, so the
null tests at s2a_half_connection.cc:176 and 191 are dropped.  Each method runs under
`mu_` (except `TagLength`), so a method is one atomic step; see `Model/Race.lean` for
`TagLength`. -/
structure HalfConn where
  cs : Ciphersuite
  keySize : Nat
  seq : UInt64
  overflowed : Bool
  alwaysFail : Bool
  nonce : Bytes
  secret : Bytes
  aead : Aead.Crypter
  deriving DecidableEq, Repr

namespace HalfConn

/-- Ciphersuite-specific sizes: key, nonce, traffic secret
(s2a_half_connection.cc:109-127). -/
def sizes : Ciphersuite → Option (Nat × Nat × Nat)
  | .aes128GcmSha256 => some (Aead.kAes128KeySize, Aead.kNonceSize, 32)
  | .aes256GcmSha384 => some (Aead.kAes256KeySize, Aead.kNonceSize, 48)
  | .chacha20Poly1305Sha256 => some (Aead.kChachaKeySize, Aead.kNonceSize, 32)
  | .other _ => none

/-- The second `switch` of `Create` and the one in `UpdateKey`
(s2a_half_connection.cc:146-155, 227-238). -/
def createAead (fail : Bool) (cs : Ciphersuite) (key : Bytes) :
    Except StatusCode Aead.Crypter :=
  match cs with
  | .aes128GcmSha256 => Aead.createAesGcm fail key
  | .aes256GcmSha384 => Aead.createAesGcm fail key
  | .chacha20Poly1305Sha256 => Aead.createChachaPoly fail key
  | .other _ => .error .invalidArgument

/-- `S2AHalfConnection::Create` (s2a_half_connection.cc:102-169). -/
def create (L : Lib) (f : KeyFault) (cs : Ciphersuite) (sequence : UInt64) (secret : Bytes) :
    Exec (Except StatusCode HalfConn) :=
  match sizes cs with
  | none => .ok (.error .invalidArgument)
  | some (keySize, nonceSize, secretSize) =>
    if secret.length ≠ secretSize then .ok (.error .invalidArgument)
    else do
      let (st, key) ← deriveKey L f.key cs secret (zeros keySize)
      if st ≠ .ok then return .error st
      let (st, nonce) ← deriveNonce L f.nonce cs secret (zeros nonceSize)
      if st ≠ .ok then return .error st
      match createAead f.create cs key with
      | .error e => return .error e
      | .ok a =>
        return .ok { cs := cs, keySize := keySize, seq := sequence, overflowed := false,
                     alwaysFail := false, nonce := nonce, secret := secret, aead := a }

/-- `S2AHalfConnection::NonceMask` (s2a_half_connection.cc:269-281). -/
def nonceMask (hc : HalfConn) : Exec (Bytes × HalfConn) := do
  let base ← subSize hc.nonce.length 8
  let masked := (List.range 8).foldl
    (fun (n : Bytes) i =>
      n.modify (base + i) (· ^^^ (hc.seq >>> UInt64.ofNat (56 - 8 * i)).toUInt8))
    hc.nonce
  let seq' := hc.seq + 1
  return (masked, { hc with seq := seq', overflowed := hc.overflowed || decide (seq' = 0) })

/-- Observation attached to the model: the key, nonce and inputs of an AEAD call.
[src/record_protocol/s2a_half_connection.cc:171-199] -/
structure AeadCall where
  key : Bytes
  nonce : Bytes
  aad : Bytes
  data : Bytes
  deriving DecidableEq, Repr

/-- `S2AHalfConnection::Encrypt` (s2a_half_connection.cc:171-184).  Besides state and
result, reports the AEAD call made, if any. -/
def encrypt (L : Lib) (f : EvpFault) (hc : HalfConn) (aad plaintext : List Iovec)
    (out : Iovec) : Exec (HalfConn × Option AeadCall × Aead.Result) :=
  if hc.alwaysFail || hc.overflowed then .ok (hc, none, ⟨.internal, 0, out⟩)
  else do
    let (n, hc') ← hc.nonceMask
    let call : AeadCall := ⟨hc.aead.key, n, flat aad, flat plaintext⟩
    let r ← hc.aead.encrypt L f call.nonce aad plaintext out
    return (hc', some call, r)

/-- `S2AHalfConnection::Decrypt` (s2a_half_connection.cc:186-199). -/
def decrypt (L : Lib) (f : EvpFault) (hc : HalfConn) (aad ciphertextAndTag : List Iovec)
    (out : Iovec) : Exec (HalfConn × Option AeadCall × Aead.Result) :=
  if hc.alwaysFail || hc.overflowed then .ok (hc, none, ⟨.internal, 0, out⟩)
  else do
    let (n, hc') ← hc.nonceMask
    let call : AeadCall := ⟨hc.aead.key, n, flat aad, flat ciphertextAndTag⟩
    let r ← hc.aead.decrypt L f call.nonce aad ciphertextAndTag out
    return (hc', some call, r)

/-- `S2AHalfConnection::UpdateKey` (s2a_half_connection.cc:201-254).  Fields changed
before a failing step stay changed. -/
def updateKey (L : Lib) (f : KeyFault) (hc : HalfConn) : Exec (HalfConn × StatusCode) := do
  let (st, secret) ← advanceSecret L f.advance hc.cs hc.secret
  let hc := { hc with secret := secret }
  if st ≠ .ok then return ({ hc with alwaysFail := true }, st)
  let (st, key) ← deriveKey L f.key hc.cs hc.secret (zeros hc.keySize)
  if st ≠ .ok then return ({ hc with alwaysFail := true }, st)
  let (st, nonce) ← deriveNonce L f.nonce hc.cs hc.secret hc.nonce
  let hc := { hc with nonce := nonce }
  if st ≠ .ok then return ({ hc with alwaysFail := true }, st)
  match createAead f.create hc.cs key with
  | .error e => return ({ hc with alwaysFail := true }, e)
  | .ok a => return ({ hc with aead := a, seq := 0, overflowed := false }, .ok)

/-- `S2AHalfConnection::TagLength` (s2a_half_connection.cc:256). -/
def tagLength (hc : HalfConn) : Nat := hc.aead.tagLength

end HalfConn
end S2A
