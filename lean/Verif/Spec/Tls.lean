import Verif.Spec.Hkdf
import Verif.Spec.Aead
/-
TLS 1.3 cipher suites (RFC 8446 appendix B.4) as AEAD algorithm, hash and key length.
-/
namespace S2A.Spec

structure Suite where
  alg : Alg
  hash : HashFn
  keyLen : Nat
  deriving DecidableEq, Repr

def suite : Ciphersuite → Option Suite
  | .aes128GcmSha256 => some ⟨.aes128gcm, .sha256, 16⟩
  | .aes256GcmSha384 => some ⟨.aes256gcm, .sha384, 32⟩
  | .chacha20Poly1305Sha256 => some ⟨.chachaPoly, .sha256, 32⟩
  | .other _ => none

end S2A.Spec
