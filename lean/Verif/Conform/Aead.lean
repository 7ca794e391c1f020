import Verif.Conform.Lib
import Verif.Model.Aead
/-
The loop over test vectors in the tests of the AEAD crypters.
-/
namespace S2A.Conform
open Aead

/-- A literal of the tests: `n` bytes in hexadecimal. -/
def hx (n x : Nat) : Bytes := Spec.Std.toBE n x

/-- `AesGcmTestVector`, `ChachaPolyTestVector` (aes_gcm_crypter_test.cc:35-45,
chacha_poly_crypter_test.cc:36-46). -/
structure Vec where
  id : Nat
  data : Bytes
  aad : Bytes
  key : Bytes
  nonce : Bytes
  ct : Bytes
  invalidTag : Bool
  invalidNonce : Bool

/-- `S2AAeadSliceVector` for one slice (s2a_aead_crypter_test_util.cc:28-56). -/
def slice0 (b : Bytes) : List Iovec := if b = [] then [.null 0] else [.buf b]

/-- What a call returned. -/
def outcome (x : Exec Aead.Result) : Option (StatusCode × Nat × Bytes) :=
  x.toOption.map fun r => (r.status, r.written, r.out.bytes)

/-- `DoEncryptDecrypt` (aes_gcm_crypter_test.cc:248-318, chacha_poly_crypter_test.cc:371-446): do the
calls give what the test expects? -/
def passes (create : Bytes → Except StatusCode Crypter) (L : Lib) (v : Vec) : Bool :=
  match create v.key with
  | .error _ => false
  | .ok c =>
    let n := v.data.length + 16
    let bad := outcome (c.encrypt L .none v.nonce (slice0 v.aad) (slice0 v.data) (.buf (zeros (n - 2))))
    if v.invalidNonce then bad.map (fun x => (x.1, x.2.1)) == some (.invalidArgument, 0)
    else bad.map (·.1) == some .invalidArgument &&
      match outcome (c.encrypt L .none v.nonce (slice0 v.aad) (slice0 v.data) (.buf (zeros n))) with
      | none => false
      | some (st, w, out) =>
        st == .ok && (v.ct == [] || (w == v.ct.length && ((v.ct == out) != v.invalidTag))) &&
          outcome (c.decrypt L .none v.nonce (slice0 v.aad) [.buf out]
            (if v.data = [] then .null 0 else .buf (zeros v.data.length))) ==
              some (.ok, v.data.length, v.data)

end S2A.Conform
