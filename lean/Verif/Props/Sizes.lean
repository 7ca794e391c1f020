import Verif.Lemmas.AeadStatus
import Verif.Props.Toy
/-
Property theorems about the buffer sizes that the AEAD crypters advertise: C79.
-/
namespace S2A.Aead

/-! ## C79: The advertised buffer sizes are exact -/

/-- Encryption succeeds exactly when the output buffer has the advertised size or more, and
then writes exactly the advertised number of bytes. -/
theorem C79_encrypt_size (L : Lib) (c : Crypter) (nonce : Bytes) (aad pt : List Iovec)
    (out : Bytes) (hn : nonce.length = 12) (hi : IntLens aad ∧ IntLens pt)
    (hw : AllWF aad ∧ AllWF pt) :
    ∃ r, c.encrypt L .none nonce aad pt (.buf out) = .ok r ∧
      (r.status = .ok ↔ maxCiphertextAndTagLength (flat pt).length ≤ out.length) ∧
      (r.status = .ok → r.written = maxCiphertextAndTagLength (flat pt).length) := by
  obtain ⟨st, w, ob, h1, h2, h3, h4, h5⟩ := Crypter.encrypt_spec L .none c nonce aad pt out hi.1 hi.2
  refine ⟨_, h1, ⟨fun h => (h4 h).2.2.2.1, fun h => h5 rfl hn hw.1 hw.2 h⟩,
    fun h => (h4 h).2.2.2.2.1⟩

/-- Decryption of a genuine ciphertext succeeds exactly when the output buffer has the
advertised size or more, and then writes exactly the advertised number of bytes. -/
theorem C79_decrypt_size (L : Lib) (c : Crypter) (nonce : Bytes) (aad ct : List Iovec)
    (out : Iovec) (hn : nonce.length = 12) (hi : IntLens aad ∧ IntLens ct)
    (hw : AllWF aad ∧ AllWF ct) (ho : out.WF) (ht : c.tagLength ≤ (flat ct).length) :
    ∃ n r, maxPlaintextLength (flat ct).length = .ok n ∧
      c.decrypt L .none nonce aad ct out = .ok r ∧
      (r.status = .ok → r.written = n ∧ n ≤ out.len) ∧
      ((∃ p, Spec.aeadOpen L c.alg c.key nonce (flat aad) (flat ct) = some p) →
        (r.status = .ok ↔ n ≤ out.len)) := by
  obtain ⟨st, w, ob, h1, h2, h3, h4, h5, h6⟩ :=
    Crypter.decrypt_spec L .none c nonce aad ct out hi.1 hi.2 hw.2 ho
  have key : st = .ok → w = (flat ct).length - 16 ∧ (flat ct).length - 16 ≤ out.len := by
    intro h
    obtain ⟨_, _, p, hp, hpw, hpl, _⟩ := h4 h
    have := (aeadOpen_length hp).2
    omega
  refine ⟨(flat ct).length - 16, _, ?_, h1, key,
    fun hg => ⟨fun h => (key h).2, fun h => h5 rfl hn hw.1 h hg⟩⟩
  simp only [Crypter.tagLength, kTagSize] at ht
  simp only [maxPlaintextLength, subSize, kTagSize]
  rw [if_pos ht]

/-- A ciphertext shorter than a tag: no size is advertised (the subtraction in the code
wraps around) and decryption refuses it whatever the size of the output buffer. -/
theorem C79_short_ciphertext (L : Lib) (c : Crypter) (nonce : Bytes) (aad ct : List Iovec)
    (out : Iovec) (hi : IntLens aad ∧ IntLens ct) (hw : AllWF aad ∧ AllWF ct) (ho : out.WF)
    (ht : (flat ct).length < c.tagLength) :
    maxPlaintextLength (flat ct).length = .error .sizeWrap ∧
      ∃ r, c.decrypt L .none nonce aad ct out = .ok r ∧ r.status = .invalidArgument := by
  simp only [Crypter.tagLength, kTagSize] at ht
  constructor
  · simp only [maxPlaintextLength, subSize, kTagSize]
    rw [if_neg (by omega)]
  · obtain ⟨w, o, h⟩ := decrypt_status L c nonce aad ct out hi.1 hi.2 hw.1 hw.2 ho
    refine ⟨_, h, ?_⟩
    simp only [decStatus]
    rw [if_neg (by omega)]

/-- The two sizes are inverse, and the larger is the plaintext and a tag. -/
theorem C79_sizes_inverse (c : Crypter) (n : Nat) :
    maxPlaintextLength (maxCiphertextAndTagLength n) = .ok n ∧
      maxCiphertextAndTagLength n = n + c.tagLength := by
  simp [maxPlaintextLength, maxCiphertextAndTagLength, subSize, kTagSize, Crypter.tagLength]

/-- Three bytes: nineteen are advertised and enough, eighteen are refused; and back. -/
example :
    maxCiphertextAndTagLength 3 = 19 ∧
    (∃ o, (⟨.chachaPoly, zeros 32⟩ : Crypter).encrypt (Lib.toy true) .none (zeros 12)
      [.buf [9]] [.buf [1], .null 0, .buf [2, 3]] (.buf (zeros 19)) = .ok ⟨.ok, 19, o⟩ ∧
      maxPlaintextLength 19 = .ok 3 ∧
      (∃ d, (⟨.chachaPoly, zeros 32⟩ : Crypter).decrypt (Lib.toy true) .none (zeros 12)
        [.buf [9]] [o] (.buf (zeros 3)) = .ok ⟨.ok, 3, d⟩) ∧
      (∃ d, (⟨.chachaPoly, zeros 32⟩ : Crypter).decrypt (Lib.toy true) .none (zeros 12)
        [.buf [9]] [o] (.buf (zeros 2)) = .ok ⟨.invalidArgument, 0, d⟩)) ∧
    (∃ o, (⟨.chachaPoly, zeros 32⟩ : Crypter).encrypt (Lib.toy true) .none (zeros 12)
      [.buf [9]] [.buf [1], .null 0, .buf [2, 3]] (.buf (zeros 18)) =
        .ok ⟨.invalidArgument, 0, o⟩) :=
  ⟨rfl, ⟨_, rfl, rfl, ⟨_, rfl⟩, ⟨_, rfl⟩⟩, ⟨_, rfl⟩⟩

/-- The hypotheses of the theorems are met by these buffers. -/
example : IntLens [.buf [9]] ∧ IntLens [.buf [1], .null 0, .buf [2, 3]] ∧
    AllWF [.buf [1], .null 0, .buf [2, 3]] ∧ (Iovec.buf (zeros 2)).WF := by
  refine ⟨?_, ?_, ?_, by decide⟩
  · intro v hv; simp at hv; subst hv; decide
  · intro v hv; simp at hv; rcases hv with rfl | rfl | rfl <;> decide
  · intro v hv; simp at hv; rcases hv with rfl | rfl | rfl <;> decide

end S2A.Aead
