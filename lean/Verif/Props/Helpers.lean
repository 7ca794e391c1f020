import Verif.Model.Helpers
import Verif.Spec.Tls
import Verif.Lemmas.AeadStatus
import Verif.Props.Toy
/-
C79: the sizes an AEAD crypter advertises, on 64-bit values.  C122: the hash function of a
ciphersuite.
-/
namespace S2A

namespace Aead

/-- For which arguments the two sizes, computed in 64 bits, are right: all but the last sixteen for
the ciphertext, all but the first sixteen for the plaintext.  The others wrap around: the size for
the ciphertext is then less than a tag, the size for the plaintext at least 2^64 - 16. -/
theorem C79_sizes_64_bit (n : UInt64) :
    ((maxCiphertextAndTagLength64 n).toNat = n.toNat + 16 ↔ n.toNat < 2 ^ 64 - 16) ∧
    (2 ^ 64 - 16 ≤ n.toNat → (maxCiphertextAndTagLength64 n).toNat < 16) ∧
    ((maxPlaintextLength64 n).toNat + 16 = n.toNat ↔ 16 ≤ n.toNat) ∧
    (n.toNat < 16 → 2 ^ 64 - 16 ≤ (maxPlaintextLength64 n).toNat) ∧
    maxPlaintextLength64 (maxCiphertextAndTagLength64 n) = n ∧
    maxCiphertextAndTagLength64 (maxPlaintextLength64 n) = n := by
  have hn := n.toNat_lt
  have hk : (UInt64.ofNat kTagSize).toNat = 16 := rfl
  simp only [maxCiphertextAndTagLength64, maxPlaintextLength64, ← UInt64.toNat_inj,
    UInt64.toNat_add, UInt64.toNat_sub, hk]
  omega

/-- A caller that makes the output buffer as large as the crypter says, for a plaintext of any
length a 64-bit machine can have: `Encrypt` fills the buffer exactly, or, if the sum has wrapped
around, refuses it. -/
theorem C79_advertised_buffer (L : Lib) (c : Crypter) (nonce : Bytes) (aad pt : List Iovec)
    (out : Bytes) (hn : nonce.length = 12) (hi : IntLens aad ∧ IntLens pt)
    (hw : AllWF aad ∧ AllWF pt) (hs : (flat pt).length < 2 ^ 64)
    (ho : out.length = (maxCiphertextAndTagLength64 (UInt64.ofNat (flat pt).length)).toNat) :
    ∃ r, c.encrypt L .none nonce aad pt (.buf out) = .ok r ∧
      ((flat pt).length < 2 ^ 64 - 16 → r.status = .ok ∧ r.written = out.length) ∧
      (2 ^ 64 - 16 ≤ (flat pt).length → r.status = .invalidArgument) := by
  obtain ⟨a, b, _⟩ := C79_sizes_64_bit (UInt64.ofNat (flat pt).length)
  rw [UInt64.toNat_ofNat_of_lt' hs] at a b
  obtain ⟨st, w, ob, h1, _, _, h4, h5⟩ := Crypter.encrypt_spec L .none c nonce aad pt out hi.1 hi.2
  obtain ⟨w', ob', g⟩ := encrypt_status L c nonce aad pt out hi.1 hi.2 hw.1 hw.2
  refine ⟨_, h1, fun h => ?_, fun h => ?_⟩
  · have hl := a.2 h
    have hok := h5 rfl hn hw.1 hw.2 (by omega)
    exact ⟨hok, by have := (h4 hok).2.2.2.2.1; simp only at this ⊢; omega⟩
  · have hl := b h
    rw [h1, if_neg (by omega)] at g
    cases g
    rfl

/-- Three bytes in two buffers and a buffer of nineteen bytes meet the hypotheses. -/
example : (flat [.buf [1], .null 0, .buf [2, 3]]).length < 2 ^ 64 ∧
    (zeros 19).length =
      (maxCiphertextAndTagLength64
        (UInt64.ofNat (flat [.buf [1], .null 0, .buf [2, 3]]).length)).toNat ∧
    (∃ o, (⟨.chachaPoly, zeros 32⟩ : Crypter).encrypt (Lib.toy true) .none (zeros 12)
      [.buf [9]] [.buf [1], .null 0, .buf [2, 3]] (.buf (zeros 19)) = .ok ⟨.ok, 19, o⟩) :=
  ⟨by decide, by decide, ⟨_, rfl⟩⟩

/-- On both sides of each boundary. -/
example : maxCiphertextAndTagLength64 (0 - 17) = 0 - 1 ∧ maxCiphertextAndTagLength64 (0 - 16) = 0 ∧
    maxPlaintextLength64 16 = 0 ∧ maxPlaintextLength64 15 = 0 - 1 := by decide

end Aead

/-- `CiphersuiteToHashFunction`, for every value of the enumeration and every output pointer: OK
exactly if the pointer is not null and the ciphersuite is one of the three of TLS 1.3, and then the
pointer points to the hash function of that ciphersuite.  Otherwise the status is INVALID_ARGUMENT,
with the message for the reason (the null pointer first), and what the pointer points to is
unchanged. -/
theorem C122_hash_function (cs : Ciphersuite) (out : Option HashFn) :
    (∀ old s, out = some old → Spec.suite cs = some s →
      ciphersuiteToHashFunction cs out = ((.ok, ""), some s.hash)) ∧
    (∀ old, out = some old → Spec.suite cs = none →
      ciphersuiteToHashFunction cs out =
        ((.invalidArgument, "Unrecognized ciphersuite."), some old)) ∧
    (out = none →
      ciphersuiteToHashFunction cs out =
        ((.invalidArgument, "|hash_function| must not be nullptr."), none)) := by
  refine ⟨?_, ?_, ?_⟩
  · rintro old s rfl hs
    cases cs <;> simp [Spec.suite] at hs <;> subst hs <;>
      simp [ciphersuiteToHashFunction, ciphersuiteToHash]
  · rintro old rfl hs
    cases cs <;> simp [Spec.suite] at hs
    simp [ciphersuiteToHashFunction, ciphersuiteToHash]
  · rintro rfl
    simp [ciphersuiteToHashFunction]

/-- All four cases occur (the first two tests of s2a_crypter_util_test.cc, lines 33-62, and a value
outside of the enumeration). -/
example : ciphersuiteToHashFunction .aes256GcmSha384 (some .sha256) = ((.ok, ""), some .sha384) ∧
    ciphersuiteToHashFunction .chacha20Poly1305Sha256 (some .sha384) = ((.ok, ""), some .sha256) ∧
    ciphersuiteToHashFunction (.other 7) (some .sha384) =
      ((.invalidArgument, "Unrecognized ciphersuite."), some .sha384) ∧
    ciphersuiteToHashFunction .aes128GcmSha256 none =
      ((.invalidArgument, "|hash_function| must not be nullptr."), none) := by
  decide

/-- The secret of a connection has the length of that hash function: creating a half connection for
a ciphersuite with a secret of any other length fails. -/
theorem C122_secret_length (L : Lib) (f : KeyFault) (cs : Ciphersuite) (seq : UInt64)
    (secret : Bytes) (h : HalfConn) (hc : HalfConn.create L f cs seq secret = .ok (.ok h)) :
    ∃ hash, ciphersuiteToHashFunction cs (some .other) = ((.ok, ""), some hash) ∧
      secret.length = hash.digestSize := by
  unfold HalfConn.create at hc
  cases cs with
  | other n => simp [HalfConn.sizes] at hc
  | _ =>
    simp only [HalfConn.sizes] at hc
    split at hc
    · cases hc
    · next hl => exact ⟨_, rfl, Decidable.not_not.1 hl⟩

/-- A half connection with AES-256-GCM and a secret of forty-eight bytes. -/
example : ∃ h, HalfConn.create (Lib.toy true) .none .aes256GcmSha384 0 (zeros 48) = .ok (.ok h) :=
  ⟨_, rfl⟩

end S2A
