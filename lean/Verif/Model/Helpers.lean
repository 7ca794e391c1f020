import Verif.Model.HalfConn
/-
Two helpers as they are called by a user of the library: the sizes an AEAD crypter advertises, on
64-bit values, and the hash function of a ciphersuite, through the output pointer.
-/
namespace S2A

namespace Aead

/-- `S2AAeadCrypter::MaxPlaintextLength` (src/crypto/s2a_aead_crypter.cc:48-51) on `size_t`. -/
def maxPlaintextLength64 (n : UInt64) : UInt64 := n - UInt64.ofNat kTagSize

/-- `S2AAeadCrypter::MaxCiphertextAndTagLength` (src/crypto/s2a_aead_crypter.cc:53-56) on
`size_t`. -/
def maxCiphertextAndTagLength64 (n : UInt64) : UInt64 := n + UInt64.ofNat kTagSize

end Aead

/-- `CiphersuiteToHashFunction` (src/record_protocol/s2a_crypter_util.cc:27-47) with the output
pointer: null, or to a value.  The status, its message, and what the pointer points to
afterwards. -/
def ciphersuiteToHashFunction (cs : Ciphersuite) (out : Option HashFn) :
    (StatusCode × String) × Option HashFn :=
  match out with
  | none => ((.invalidArgument, "|hash_function| must not be nullptr."), none)     -- 29-32
  | some old =>
    match ciphersuiteToHash cs with                                                -- 33-45
    | .ok h => ((.ok, ""), some h)
    | .error e => ((e, "Unrecognized ciphersuite."), some old)

end S2A
