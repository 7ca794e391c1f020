import Verif.Lemmas.AeadUndefined
import Verif.Props.Toy
/-
C109: the arguments for which a call of an AEAD crypter is not defined.
-/
namespace S2A.Aead
open Spec (SealUndefined OpenUndefined LongAad LongData LongCiphertext NullInTag Piecewise)

/-- `Encrypt` with the BoringSSL implementation. -/
theorem boringEncrypt_defined (L : Lib) (f : EvpFault) (alg : Alg) (key nonce : Bytes)
    (aad pt : List Iovec) (ob : Bytes) : ∃ r, boringEncrypt L f alg key nonce aad pt (.buf ob) = .ok r := by
  unfold boringEncrypt
  simp only
  split
  · exact ⟨_, rfl⟩
  split
  · exact ⟨_, rfl⟩
  next hn =>
  have hw : AllWF pt := hasBadNull_false.1 (by simpa using hn)
  split
  · exact ⟨_, rfl⟩
  next hr =>
  split
  · exact ⟨_, rfl⟩
  split
  · exact ⟨_, rfl⟩
  have hl := hw.totalLen_eq
  simp only [kTagSize] at hr
  unfold writeAt
  rw [if_pos (by simp [L.mac_len]; omega)]
  simp only [exec_bind_ok]
  rw [subSize_ok (by simp [L.mac_len]; omega)]
  simp only [exec_bind_ok]
  rw [subSize_ok (by omega)]
  exact ⟨_, rfl⟩

theorem boringDecrypt_defined (L : Lib) (f : EvpFault) (alg : Alg) (key nonce : Bytes)
    (aad ct : List Iovec) (out : Iovec) (ho : out.WF) :
    ∃ r, boringDecrypt L f alg key nonce aad ct out = .ok r := by
  unfold boringDecrypt
  simp only
  rw [if_neg (by simpa using ho)]
  split
  · exact ⟨_, rfl⟩
  split
  · exact ⟨_, rfl⟩
  next hn =>
  have hw : AllWF ct := hasBadNull_false.1 (by simpa using hn)
  split
  · exact ⟨_, rfl⟩
  split
  · exact ⟨_, rfl⟩
  next hr =>
  split
  · exact ⟨_, rfl⟩
  split
  · exact ⟨_, rfl⟩
  have hl := hw.totalLen_eq
  simp only [kTagSize] at hr
  unfold writeAt
  rw [if_pos (by simp [kTagSize]; omega)]
  simp only [exec_bind_ok]
  rw [subSize_ok (by simp [kTagSize]; omega)]
  simp only [exec_bind_ok]
  rw [subSize_ok (by omega)]
  exact ⟨_, rfl⟩

/-- **C109.**  Whatever fails in the library: an `Encrypt` that is not defined has arguments for which
`Encrypt` is not defined. -/
theorem C109_encrypt (L : Lib) (f : EvpFault) (c : Crypter) (nonce : Bytes) (aad pt : List Iovec)
    (out : Iovec) (u : UB) (h : c.encrypt L f nonce aad pt out = .error u) :
    SealUndefined L c nonce aad pt out := by
  cases out with
  | null n => exact Or.inl ⟨n, rfl⟩
  | buf ob =>
    right
    by_cases hb : L.boring = true ∧ c.alg = .chachaPoly
    · obtain ⟨r, e⟩ := boringEncrypt_defined L f c.alg c.key nonce aad pt ob
      unfold Crypter.encrypt at h
      rw [if_pos (by simp [hb.1, hb.2]), e] at h
      cases h
    refine ⟨hb, ?_⟩
    unfold Crypter.encrypt at h
    rw [if_neg (by simpa using hb)] at h
    unfold evpEncrypt at h
    simp only at h
    split at h
    · cases h
    next hn =>
    refine ⟨by simpa [kNonceSize] using hn, ?_⟩
    split at h
    · cases h
    generalize hs : setAad f 0 ⟨c.alg, c.key, nonce, [], []⟩ aad = x at h
    cases x with
    | error u' => exact Or.inl (setAad_undefined hs).2
    | ok r =>
      simp only [exec_bind_ok] at h
      cases r with
      | error e => cases h
      | ok c1 =>
        refine Or.inr ⟨setAad_wf hs, ?_⟩
        simp only at h
        generalize he : encLoop L f 0 c1 ob 0 ob.length pt = y at h
        cases y with
        | error u' => exact (encLoop_undefined (by omega) he).2
        | ok y =>
          exfalso
          simp only [exec_bind_ok] at h
          obtain ⟨ob', r⟩ := y
          cases r with
          | error e => cases h
          | ok r =>
            obtain ⟨c2, off, rem⟩ := r
            obtain ⟨g1, g2⟩ := encLoop_keeps (by omega) he
            simp only at h
            split at h
            · cases h
            split at h
            · cases h
            next hr =>
            split at h
            · cases h
            simp only [kTagSize] at hr h
            unfold writeAt at h
            rw [if_pos (by simp [Ctx.tag, L.mac_len]; omega)] at h
            simp only [exec_bind_ok] at h
            rw [subSize_ok (by omega)] at h
            simp only [exec_bind_ok] at h
            rw [subSize_ok (by omega)] at h
            cases h

/-- And if nothing fails in the library, it is not defined for all of them. -/
theorem C109_encrypt_exact (L : Lib) (c : Crypter) (nonce : Bytes) (aad pt : List Iovec)
    (out : Iovec) :
    (∃ u, c.encrypt L .none nonce aad pt out = .error u) ↔ SealUndefined L c nonce aad pt out := by
  constructor
  · rintro ⟨u, h⟩
    exact C109_encrypt L .none c nonce aad pt out u h
  · rintro (⟨n, rfl⟩ | ⟨hb, hn, h⟩)
    · refine ⟨.assertFail, ?_⟩
      unfold Crypter.encrypt
      split <;> rfl
    · unfold Crypter.encrypt
      rw [if_neg (by simpa [Piecewise] using hb)]
      cases out with
      | null n => exact ⟨_, rfl⟩
      | buf ob =>
        unfold evpEncrypt
        simp only
        rw [if_neg (by simpa [kNonceSize] using hn), if_neg (by simp [EvpFault.none])]
        rcases h with h | ⟨ha, h⟩
        · rw [setAad_long (by simp [EvpFault.none]) h]
          exact ⟨_, rfl⟩
        · rcases setAad_result (f := .none) (by simp [EvpFault.none]) ha 0
            ⟨c.alg, c.key, nonce, [], []⟩ with e | ⟨c1, e⟩
          · rw [e]; exact ⟨_, rfl⟩
          rw [e]
          simp only [exec_bind_ok]
          have h' : LongData pt ob.length := h
          rw [encLoop_long (by simp [EvpFault.none]) (by omega) h']
          exact ⟨_, rfl⟩

/-- The same for `Decrypt`. -/
theorem C109_decrypt (L : Lib) (f : EvpFault) (c : Crypter) (nonce : Bytes) (aad ct : List Iovec)
    (out : Iovec) (u : UB) (h : c.decrypt L f nonce aad ct out = .error u) :
    OpenUndefined L c nonce aad ct out := by
  by_cases ho : out.WF
  case neg =>
    cases out with
    | buf d => exact absurd trivial ho
    | null n =>
      cases n with
      | zero => exact absurd rfl ho
      | succ n => exact Or.inl ⟨n, rfl⟩
  right
  by_cases hb : L.boring = true ∧ c.alg = .chachaPoly
  · obtain ⟨r, e⟩ := boringDecrypt_defined L f c.alg c.key nonce aad ct out ho
    unfold Crypter.decrypt at h
    rw [if_pos (by simp [hb.1, hb.2]), e] at h
    cases h
  refine ⟨hb, ?_⟩
  have hol := ho.len_eq
  unfold Crypter.decrypt at h
  rw [if_neg (by simpa using hb)] at h
  unfold evpDecrypt at h
  simp only at h
  rw [if_neg (by simpa using ho)] at h
  split at h
  · cases h
  next h16 =>
  split at h
  · cases h
  next hn =>
  refine ⟨by simpa [kNonceSize] using hn, by simpa [kTagSize] using h16, ?_⟩
  simp only [kTagSize] at h16
  split at h
  · cases h
  generalize hs : setAad f 0 ⟨c.alg, c.key, nonce, [], []⟩ aad = x at h
  cases x with
  | error u' => exact Or.inl (setAad_undefined hs).2
  | ok r =>
    simp only [exec_bind_ok] at h
    cases r with
    | error e => cases h
    | ok c1 =>
      refine Or.inr ⟨setAad_wf hs, ?_⟩
      simp only at h
      generalize he : decLoop L f 0 c1 out.bytes 0 out.bytes.length (totalLen ct) [] ct = y at h
      cases y with
      | error u' =>
        have := (decLoop_undefined (by omega) he).2
        rw [← hol] at this
        exact Or.inl this
      | ok y =>
        right
        simp only [exec_bind_ok] at h
        obtain ⟨ob', r⟩ := y
        cases r with
        | error e => cases h
        | ok s =>
          obtain ⟨g1, g2, g3, g4, pre, g5, g6⟩ := decLoop_stops (by omega) (by simp) (by omega)
            (fun _ => rfl) he
          simp only [g2, kTagSize] at h
          rw [if_neg (by omega)] at h
          simp only [tagAppend, kTagSize] at h
          rw [if_pos (by simp; omega)] at h
          simp only [exec_bind_ok, List.nil_append] at h
          rcases gatherTag_result (vs := s.rest) (tag := s.cur) g4 with ⟨_, t, e1, e2⟩ |
            ⟨e1, pre', n, post, e2, e3⟩
          · exfalso
            rw [e1] at h
            simp only [exec_bind_ok, e2] at h
            rw [if_neg (by simp)] at h
            split at h
            · cases h
            split at h
            · cases h
            rw [subSize_ok (by omega)] at h
            cases h
          · have ht : totalLen ct = totalLen pre + totalLen s.rest := by
              rw [← totalLen_append, ← g5]
            refine ⟨pre ++ pre', n, post, ?_, ?_, ?_, by omega⟩
            · rw [g5, e2, List.append_assoc]
            · intro v hv
              rcases List.mem_append.1 hv with hv | hv
              · exact g6 v hv
              · exact e3 v hv
            · rw [totalLen_append]
              omega

/-- And if nothing fails in the library, it is not defined for all of them. -/
theorem C109_decrypt_exact (L : Lib) (c : Crypter) (nonce : Bytes) (aad ct : List Iovec)
    (out : Iovec) :
    (∃ u, c.decrypt L .none nonce aad ct out = .error u) ↔ OpenUndefined L c nonce aad ct out := by
  constructor
  · rintro ⟨u, h⟩
    exact C109_decrypt L .none c nonce aad ct out u h
  · intro hx
    by_cases ho : out.WF
    case neg =>
      refine ⟨.assertFail, ?_⟩
      unfold Crypter.decrypt boringDecrypt evpDecrypt
      simp [ho]
    rcases hx with ⟨n, rfl⟩ | ⟨hb, hn, h16, h⟩
    · exact absurd ho (by simp [Iovec.WF])
    have hol := ho.len_eq
    unfold Crypter.decrypt
    rw [if_neg (by simpa [Piecewise] using hb)]
    unfold evpDecrypt
    simp only
    rw [if_neg (by simpa using ho), if_neg (by simpa [kTagSize] using h16),
      if_neg (by simpa [kNonceSize] using hn), if_neg (by simp [EvpFault.none])]
    rcases h with h | ⟨ha, h⟩
    · rw [setAad_long (by simp [EvpFault.none]) h]
      exact ⟨_, rfl⟩
    rcases setAad_result (f := .none) (by simp [EvpFault.none]) ha 0 ⟨c.alg, c.key, nonce, [], []⟩ with
      e | ⟨c1, e⟩
    · rw [e]; exact ⟨_, rfl⟩
    rw [e]
    simp only [exec_bind_ok]
    rcases h with h | ⟨pre, n, post, h1, h2, h3, h4⟩
    · rw [decLoop_long (by simp [EvpFault.none]) (by omega) (by rw [← hol]; exact h)]
      exact ⟨_, rfl⟩
    generalize he : decLoop L .none 0 c1 out.bytes 0 out.bytes.length (totalLen ct) [] ct = y
    cases y with
    | error u => exact ⟨u, rfl⟩
    | ok y =>
      obtain ⟨ob', r⟩ := y
      cases r with
      | error e =>
        exact absurd he (decLoop_goes_on (by simp [EvpFault.none]) (by omega) h1 h2 h3 (by omega))
      | ok s =>
        obtain ⟨g1, g2, g3, g4, pre', g5, g6⟩ := decLoop_stops (by omega) (by simp) (by omega)
          (fun _ => rfl) he
        simp only [g2, kTagSize, exec_bind_ok]
        rw [if_neg (by omega)]
        simp only [tagAppend, kTagSize]
        rw [if_pos (by simp; omega)]
        simp only [exec_bind_ok, List.nil_append]
        rcases gatherTag_result (vs := s.rest) (tag := s.cur) g4 with ⟨e1, _⟩ | ⟨e1, _⟩
        · exfalso
          have hall : AllWF ct := by
            rw [g5]
            intro v hv
            rcases List.mem_append.1 hv with hv | hv
            · exact g6 v hv
            · exact e1 v hv
          have := hall (.null (n + 1)) (by rw [h1]; simp)
          simp [Iovec.WF] at this
        · rw [e1]
          exact ⟨_, rfl⟩

section Witness

theorem longAad_replicate {n : Nat} (h : 2 ^ 31 ≤ n) : LongAad [.buf (List.replicate n 0)] :=
  ⟨[], _, [], rfl, allWF_nil, by rw [List.length_replicate]; exact h⟩

/-- One buffer of 2^31 bytes as associated data: not defined with AES-GCM, but defined with
ChaCha20-Poly1305 of BoringSSL. -/
example (L : Lib) (c : Crypter) :
    (∃ u, (⟨.aes128gcm, c.key⟩ : Crypter).encrypt L .none (zeros 12)
      [.buf (List.replicate (2 ^ 31) 0)] [] (.buf (zeros 16)) = .error u) ∧
    (L.boring = true → ∃ r, (⟨.chachaPoly, c.key⟩ : Crypter).encrypt L .none (zeros 12)
      [.buf (List.replicate (2 ^ 31) 0)] [] (.buf (zeros 16)) = .ok r) := by
  refine ⟨(C109_encrypt_exact ..).2 (Or.inr ⟨by simp [Piecewise], rfl,
    Or.inl (longAad_replicate (Nat.le_refl _))⟩), fun hb => ?_⟩
  generalize hx : (⟨.chachaPoly, c.key⟩ : Crypter).encrypt L .none (zeros 12)
      [.buf (List.replicate (2 ^ 31) 0)] [] (.buf (zeros 16)) = x
  cases x with
  | ok r => exact ⟨r, rfl⟩
  | error u =>
    rcases C109_encrypt _ _ _ _ _ _ _ _ hx with ⟨n, h⟩ | ⟨h, _⟩
    · cases h
    · exact absurd ⟨hb, rfl⟩ h

/-- A null pointer where the tag is: not defined with AES-GCM; in the data: refused. -/
example : OpenUndefined (Lib.toy true) ⟨.aes128gcm, zeros 16⟩ (zeros 12) []
      [.buf [1, 2], .null 16] (.buf [0, 0]) ∧
    (⟨.aes128gcm, zeros 16⟩ : Crypter).decrypt (Lib.toy true) .none (zeros 12) []
      [.buf [1, 2], .null 16] (.buf [0, 0]) = .error .nullDeref ∧
    (⟨.aes128gcm, zeros 16⟩ : Crypter).decrypt (Lib.toy true) .none (zeros 12) []
      [.null 2, .buf (zeros 16)] (.buf [0, 0]) = .ok ⟨.invalidArgument, 0, .buf [0, 0]⟩ := by
  refine ⟨Or.inr ⟨by simp [Piecewise], rfl, by decide, Or.inr ⟨allWF_nil, Or.inr
    ⟨[.buf [1, 2]], 15, [], rfl, AllWF.cons trivial allWF_nil, by decide, by decide⟩⟩⟩, ?_, ?_⟩ <;> rfl

/-- Ciphertext: the tag does not count. -/
example (n : Nat) : LongCiphertext [.buf (List.replicate (n + 16) 0)] n ↔ 2 ^ 31 ≤ n := by
  constructor
  · rintro ⟨pre, d, post, e, _, h, _⟩
    cases pre with
    | nil =>
      cases e
      simp [totalLen, Iovec.len] at h
      omega
    | cons x pre => simp at e
  · intro h
    refine ⟨[], _, [], rfl, allWF_nil, ?_, ?_⟩ <;> simp [totalLen, Iovec.len] <;> omega

end Witness

end S2A.Aead
