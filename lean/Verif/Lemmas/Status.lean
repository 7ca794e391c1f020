import Verif.Spec.Status
import Verif.Lemmas.HalfConn
import Verif.Props.Frame
/-
The status codes of creation.
-/
namespace S2A
open HalfConn

theorem Hkdf.deriveSecret_code (L : Lib) (f : HkdfFault) (h : HashFn) (prk info out : Bytes)
    (ho : h ≠ .other) (hp : h.digestSize ≤ prk.length) (hout : out.length ≤ h.digestSize)
    (h0 : out ≠ []) :
    ∃ st out', deriveSecret L f h prk info out = .ok (st, out') ∧
      (Spec.HmacFails f → st = .internal) ∧ (¬ Spec.HmacFails f → st = .ok) := by
  have hd : 0 < h.digestSize := by
    have := List.length_pos_iff.2 h0
    omega
  have hn : (out.length + h.digestSize - 1) / h.digestSize = 1 := by
    have := List.length_pos_iff.2 h0
    have h1 : 1 ≤ (out.length + h.digestSize - 1) / h.digestSize := by
      rw [Nat.le_div_iff_mul_le hd]; omega
    have h2 : (out.length + h.digestSize - 1) / h.digestSize < 2 := by
      rw [Nat.div_lt_iff_lt_mul hd]; omega
    omega
  have e : deriveSecret L f h prk info out =
      if f.ctxNew then .ok (.internal, out) else derivation L h f 1 prk info out := by
    cases h with
    | other => exact absurd rfl ho
    | sha256 =>
      simp only [deriveSecret]
      rw [if_neg (by omega), hn, if_neg (by omega)]
    | sha384 =>
      simp only [deriveSecret]
      rw [if_neg (by omega), hn, if_neg (by omega)]
  obtain ⟨st, out', g1, -, g3, -, -⟩ := deriveSecret_spec L f h prk info out
  refine ⟨st, out', g1, ?_, ?_⟩
  · intro hf
    rw [e] at g1
    by_cases h1 : f.ctxNew = true
    · rw [if_pos h1] at g1; cases g1; rfl
    rw [if_neg h1] at g1
    unfold derivation at g1
    by_cases h2 : f.init = true
    · rw [if_pos h2] at g1; cases g1; rfl
    rw [if_neg h2] at g1
    rcases hf with hf | hf | hf
    · exact absurd hf h1
    · exact absurd hf h2
    · rw [loop, if_pos hf] at g1; cases g1; rfl
  · intro hf
    simp only [Spec.HmacFails, not_or] at hf
    obtain ⟨h1, h2, h3⟩ := hf
    rw [e, if_neg h1, derivation, if_neg h2, loop, if_neg h3] at g1
    simp only [exec_bind_eq_ok] at g1
    obtain ⟨_, _, _, _, g1⟩ := g1
    rw [loop] at g1
    cases g1
    rfl

namespace HalfConn

theorem create_code (L : Lib) (f : KeyFault) (cs : Ciphersuite) (q : UInt64) (secret : Bytes) :
    ((∀ s, Spec.suite cs = some s → secret.length ≠ s.hash.digestSize) →
      create L f cs q secret = .ok (.error .invalidArgument)) ∧
    ∀ s, Spec.suite cs = some s → secret.length = s.hash.digestSize →
      (Spec.LibraryFails f → create L f cs q secret = .ok (.error .internal)) ∧
      (¬ Spec.LibraryFails f → ∃ hc, create L f cs q secret = .ok (.ok hc)) := by
  constructor
  · intro hn
    unfold create
    cases hs : Spec.suite cs with
    | none => rw [suite_none_sizes cs hs]
    | some s =>
      rw [sizes_suite cs s hs]
      simp only
      rw [if_pos (hn s hs)]
  · intro s hs hl
    obtain ⟨c1, c2, c3, c4, c5, c6, c7, c8⟩ := ciphersuiteToHash_suite cs s hs
    have hk0 : 0 < s.keyLen := by
      clear c1 c2 c3 c4 c5 c6 c7 c8 hl
      cases cs <;> simp only [Spec.suite, reduceCtorEq, Option.some.injEq] at hs <;> subst hs <;>
        decide
    have hkey : ∃ st out', deriveKey L f.key cs secret (zeros s.keyLen) = .ok (st, out') ∧
        (Spec.HmacFails f.key → st = .internal) ∧ (¬ Spec.HmacFails f.key → st = .ok) := by
      unfold deriveKey deriveLabel
      rw [c1]
      exact Hkdf.deriveSecret_code L f.key s.hash secret _ (zeros s.keyLen) c2 (by omega)
        (by simp; omega) (by intro h; have := congrArg List.length h; simp at this; omega)
    have hnon : ∃ st out', deriveNonce L f.nonce cs secret (zeros 12) = .ok (st, out') ∧
        (Spec.HmacFails f.nonce → st = .internal) ∧ (¬ Spec.HmacFails f.nonce → st = .ok) := by
      unfold deriveNonce deriveLabel
      rw [c1]
      exact Hkdf.deriveSecret_code L f.nonce s.hash secret _ (zeros 12) c2 (by omega)
        (by simp; omega) (by decide)
    obtain ⟨st1, key, k1, k2, k3⟩ := hkey
    obtain ⟨st2, nonce, n1, n2, n3⟩ := hnon
    have hlen : key.length = s.keyLen := by
      obtain ⟨_, _, j1, j2, _⟩ := deriveKey_spec L f.key cs s secret (zeros s.keyLen) hs hl (by simp)
      rw [k1] at j1
      cases j1
      simpa using j2
    have e : create L f cs q secret =
        (if st1 ≠ .ok then .ok (.error st1) else if st2 ≠ .ok then .ok (.error st2) else
          if f.create then .ok (.error .internal) else
            .ok (.ok { cs := cs, keySize := s.keyLen, seq := q, overflowed := false,
                       alwaysFail := false, nonce := nonce, secret := secret,
                       aead := ⟨s.alg, key⟩ })) := by
      unfold create
      rw [sizes_suite cs s hs]
      simp only
      rw [if_neg (by simpa using hl), k1, exec_bind_ok]
      by_cases h1 : st1 = .ok
      · simp only [h1, ne_eq, not_true_eq_false, if_false, n1, exec_bind_ok]
        by_cases h2 : st2 = .ok
        · simp only [h2, not_true_eq_false, if_false]
          rw [createAead_spec f.create cs s key hs hlen]
          cases f.create <;> rfl
        · simp only [h2, not_false_eq_true, if_true]
          rfl
      · simp only [h1, ne_eq, not_false_eq_true, if_true]
        rfl
    rw [e]
    constructor
    · intro hf
      by_cases h1 : Spec.HmacFails f.key
      · rw [k2 h1]; rfl
      rw [k3 h1, if_neg (by simp)]
      by_cases h2 : Spec.HmacFails f.nonce
      · rw [n2 h2]; rfl
      rw [n3 h2, if_neg (by simp)]
      rcases hf with hf | hf | hf
      · exact absurd hf h1
      · exact absurd hf h2
      · rw [if_pos hf]
    · intro hf
      simp only [Spec.LibraryFails, not_or] at hf
      obtain ⟨h1, h2, h3⟩ := hf
      rw [k3 h1, n3 h2, if_neg (by simp), if_neg (by simp), if_neg h3]
      exact ⟨_, rfl⟩

end HalfConn
end S2A
