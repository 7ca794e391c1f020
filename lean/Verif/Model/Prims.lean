import Verif.Model.Base
/-
The crypto library (OpenSSL / BoringSSL) as a parameter of the model.
-/
namespace S2A

/-- `hkdf::HashFunction` (src/crypto/hkdf.h); `other` stands for any value outside
the enumerators, which a `static_cast` can produce. [src/crypto/hkdf.h:32-35] -/
inductive HashFn
  | sha256 | sha384 | other
  deriving DecidableEq, Repr

/-- `EVP_MD_size`. [library call at src/crypto/hkdf.cc:63-108] -/
def HashFn.digestSize : HashFn → Nat
  | .sha256 => 32
  | .sha384 => 48
  | .other => 0

/-- The AEAD algorithms in use. [src/crypto/aes_gcm_crypter.cc:404-434,
src/crypto/chacha_poly_crypter_openssl.cc:410-437] -/
inductive Alg
  | aes128gcm | aes256gcm | chachaPoly
  deriving DecidableEq, Repr

/-- The cryptographic functions the library computes.  Only lengths are assumed:
HMAC returns a digest, the AEAD tag has 16 bytes.  `ks alg key nonce i` is byte `i`
of the key stream XORed onto the data; `mac alg key nonce aad ct` is the tag.  Both
AES-GCM and ChaCha20-Poly1305 have this shape (NIST SP 800-38D section 7, RFC 8439
section 2.8). `boring` says which library the ChaCha implementation is built for
(CMakeLists.txt / BUILD choose one of the two files). -/
structure Lib where
  boring : Bool
  hmac : HashFn → (key msg : Bytes) → Bytes
  hmac_len : ∀ h k m, (hmac h k m).length = h.digestSize
  ks : Alg → (key nonce : Bytes) → Nat → UInt8
  mac : Alg → (key nonce aad ct : Bytes) → Bytes
  mac_len : ∀ a k n d c, (mac a k n d c).length = 16

/-- Which calls into the AEAD part of the library fail (return 0) during one
`Encrypt`/`Decrypt`. [src/crypto/aes_gcm_crypter.cc:39-398 and the same calls in the other two
files] -/
structure EvpFault where
  init : Bool            -- EVP_*Init_ex with the nonce
  aad : Nat → Bool       -- EVP_*Update for the i-th aad buffer
  update : Nat → Bool    -- EVP_*Update for the i-th data buffer
  final : Bool           -- EVP_*Final_ex (for decryption: besides a tag mismatch)
  tag : Bool             -- EVP_CIPHER_CTX_ctrl get/set tag
  oneShot : Bool         -- EVP_AEAD_CTX_seal / open (besides a tag mismatch)

/-- No failure. [no counterpart in the code] -/
def EvpFault.none : EvpFault :=
  { init := false, aad := fun _ => false, update := fun _ => false, final := false,
    tag := false, oneShot := false }

/-- Which HMAC calls fail during one HKDF derivation. [src/crypto/hkdf.cc:30-108] -/
structure HkdfFault where
  ctxNew : Bool          -- HMAC_CTX_new
  init : Bool            -- first HMAC_Init_ex
  step : Nat → Bool      -- any HMAC call in iteration i

/-- No failure (no counterpart in the code). -/
def HkdfFault.none : HkdfFault :=
  { ctxNew := false, init := false, step := fun _ => false }

end S2A
