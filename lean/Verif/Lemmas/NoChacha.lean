import Verif.Model.NoChacha
import Verif.Lemmas.Status
/-
Lemmas for C107.
-/
namespace S2A.NoChacha

theorem createAead_same (fail : Bool) (cs : Ciphersuite) (key : Bytes)
    (h : cs ≠ .chacha20Poly1305Sha256) : createAead fail cs key = HalfConn.createAead fail cs key := by
  cases cs <;> first | rfl | exact absurd rfl h

theorem halfCreate_same (L : Lib) (f : KeyFault) (cs : Ciphersuite) (q : UInt64) (secret : Bytes)
    (h : cs ≠ .chacha20Poly1305Sha256) :
    halfCreate L f cs q secret = HalfConn.create L f cs q secret := by
  unfold halfCreate HalfConn.create
  simp only [createAead_same _ _ _ h]
  rfl

/-- The keys of a direction with ChaCha20-Poly1305 are derived, and then refused. -/
theorem halfCreate_chacha (L : Lib) (f : KeyFault) (q : UInt64) (secret : Bytes) :
    halfCreate L f .chacha20Poly1305Sha256 q secret =
      if secret.length ≠ 32 then .ok (.error .invalidArgument)
      else .ok (.error (open Classical in
        if Spec.HmacFails f.key ∨ Spec.HmacFails f.nonce then .internal
        else .failedPrecondition)) := by
  let cs : Ciphersuite := .chacha20Poly1305Sha256
  let s : Spec.Suite := ⟨.chachaPoly, .sha256, 32⟩
  have hs : Spec.suite cs = some s := rfl
  by_cases hl : secret.length = 32
  case neg =>
    rw [if_pos hl]
    unfold halfCreate
    simp only [HalfConn.sizes]
    rw [if_pos hl]
  rw [if_neg (by simpa using hl)]
  obtain ⟨c1, c2, c3, c4, c5, c6, c7, c8⟩ := ciphersuiteToHash_suite cs s hs
  have hd : s.hash.digestSize = 32 := rfl
  have hkey : ∃ st out', deriveKey L f.key cs secret (zeros 32) = .ok (st, out') ∧
      (Spec.HmacFails f.key → st = .internal) ∧ (¬ Spec.HmacFails f.key → st = .ok) := by
    unfold deriveKey deriveLabel
    rw [c1]
    exact Hkdf.deriveSecret_code L f.key s.hash secret _ (zeros 32) c2 (by omega)
      (by simp; omega) (by decide)
  have hnon : ∃ st out', deriveNonce L f.nonce cs secret (zeros 12) = .ok (st, out') ∧
      (Spec.HmacFails f.nonce → st = .internal) ∧ (¬ Spec.HmacFails f.nonce → st = .ok) := by
    unfold deriveNonce deriveLabel
    rw [c1]
    exact Hkdf.deriveSecret_code L f.nonce s.hash secret _ (zeros 12) c2 (by omega)
      (by simp; omega) (by decide)
  obtain ⟨st1, key, k1, k2, k3⟩ := hkey
  obtain ⟨st2, nonce, n1, n2, n3⟩ := hnon
  have hlen : key.length = 32 := by
    obtain ⟨_, _, j1, j2, _⟩ := HalfConn.deriveKey_spec L f.key cs s secret (zeros s.keyLen) hs hl
      (by simp)
    have j1' := k1.symm.trans j1
    cases j1'
    simpa using j2
  have e : halfCreate L f cs q secret =
      (if st1 ≠ .ok then .ok (.error st1) else if st2 ≠ .ok then .ok (.error st2) else
        .ok (.error .failedPrecondition)) := by
    unfold halfCreate
    show (if secret.length ≠ 32 then _ else _) = _
    rw [if_neg (by simpa using hl)]
    show (deriveKey L f.key cs secret (zeros 32) >>= _) = _
    rw [k1, exec_bind_ok]
    simp only
    split
    · rfl
    · show (deriveNonce L f.nonce cs secret (zeros 12) >>= _) = _
      rw [n1, exec_bind_ok]
      simp only
      split
      · rfl
      · simp only [cs, createAead, createChachaPoly, hlen]
        rfl
  rw [e]
  by_cases h1 : Spec.HmacFails f.key
  · rw [k2 h1, if_pos (by decide), if_pos (.inl h1)]
  · rw [k3 h1, if_neg (by decide)]
    by_cases h2 : Spec.HmacFails f.nonce
    · rw [n2 h2, if_pos (by decide), if_pos (.inr h2)]
    · rw [n3 h2, if_neg (by decide), if_neg (fun h => h.elim h1 h2)]

end S2A.NoChacha
