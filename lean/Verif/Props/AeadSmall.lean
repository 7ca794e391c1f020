import Verif.Props.Aead
/-
C37, the rest: what a decryption leaves in an output buffer that is too small.
-/
namespace S2A.Aead
open Spec (fitting)

theorem decLoop_small (L : Lib) (vs : List Iovec) (k : Nat) (c : Ctx) (pre tail : Bytes)
    (total : Nat) (cur : Bytes) (hi : IntLens vs) (hw : AllWF vs)
    (ht : total = (flat vs).length) (hs : tail.length + 16 < total) :
    decLoop L .none k c (pre ++ tail) pre.length tail.length total cur vs =
      .ok (pre ++ xorKs (L.ks c.alg c.key c.nonce) c.ct.length (fitting tail.length vs) ++
        tail.drop (fitting tail.length vs).length, .error .invalidArgument) := by
  induction vs generalizing k c pre tail total cur with
  | nil => simp at ht; omega
  | cons v vs ih =>
    unfold decLoop
    simp only [kTagSize]
    rw [if_neg (by omega)]
    have hl : v.bytes.length = v.len := hw.head.len_eq.symm
    by_cases h0 : v.len = 0
    · rw [if_pos h0]
      have hb : v.bytes = [] := List.eq_nil_of_length_eq_zero (by omega)
      rw [ih (k + 1) c pre tail total [] hi.tail hw.tail (by simpa [hb] using ht) hs]
      simp [fitting, h0, hb]
    · rw [if_neg h0]
      cases v with
      | null n => exact absurd hw.head (by simpa [Iovec.WF, Iovec.len] using h0)
      | buf d =>
        simp only [flat_cons, Iovec.bytes, List.length_append] at ht
        have hlt : d.length < intBound := hi.head
        have hbt : (if d.length > total - 16 then total - 16 else d.length) =
            min d.length (total - 16) := by
          split <;> omega
        simp only [hbt]
        by_cases hr : d.length ≤ tail.length
        · have hmin : min d.length (total - 16) = d.length := by omega
          have hfit : fitting tail.length (.buf d :: vs) =
              d ++ fitting (tail.length - d.length) vs := by
            simp [fitting, Iovec.len, Iovec.bytes, hr]
          rw [hmin, if_neg (by omega), if_neg (by omega), if_neg (by simp [EvpFault.none])]
          simp only [Ctx.decUpdate, List.take_length]
          rw [writeAt_append _ _ _ (by simp; omega)]
          simp only [xorKs_length]
          rw [subSize_ok (by omega), subSize_ok (by omega)]
          simp only [exec_bind_ok]
          have := ih (k + 1) { c with ct := c.ct ++ d }
            (pre ++ xorKs (L.ks c.alg c.key c.nonce) c.ct.length d) (tail.drop d.length)
            (total - d.length) (d.drop d.length) hi.tail hw.tail (by omega)
            (by rw [List.length_drop]; omega)
          simp only [List.length_append, xorKs_length, List.length_drop] at this
          rw [this, hfit, xorKs_append]
          simp [List.append_assoc, Nat.add_comm]
        · rw [if_pos (by omega)]
          have hfit : fitting tail.length (.buf d :: vs) = [] := by
            simp [fitting, Iovec.len, hr]
          simp [hfit, xorKs]

/-- An output buffer that is too small for the plaintext: the call fails with INVALID_ARGUMENT and
reports zero bytes.  The BoringSSL implementation of ChaCha20-Poly1305 leaves the buffer as it
was.  All others leave in it the decryption of the input buffers that fit, although nothing was
authenticated. -/
theorem C37_too_small_output (L : Lib) (c : Crypter) (nonce : Bytes) (aad ct : List Iovec)
    (out : Iovec) (ia : IntLens aad) (ic : IntLens ct) (wa : AllWF aad) (wc : AllWF ct)
    (wo : out.WF) (hn : nonce.length = 12) (small : out.len + 16 < (flat ct).length) :
    c.decrypt L .none nonce aad ct out =
      .ok ⟨.invalidArgument, 0,
        if L.boring = true ∧ c.alg = .chachaPoly then out
        else out.setBytes (Spec.stream (L.ks c.alg c.key nonce) (fitting out.len ct) ++
          out.bytes.drop (fitting out.len ct).length)⟩ := by
  have hol : out.bytes.length = out.len := wo.len_eq.symm
  unfold Crypter.decrypt
  by_cases hb : L.boring = true ∧ c.alg = .chachaPoly
  · rw [if_pos (by simp [hb]), if_pos hb]
    unfold boringDecrypt
    rw [if_neg (by simpa using wo)]
    simp only [wc.totalLen_eq, kNonceSize, kTagSize]
    rw [if_neg (by omega), if_neg (by rw [hasBadNull_false.2 wc]; decide), if_neg (by omega),
      if_pos (by omega)]
  · rw [if_neg (by simpa using hb), if_neg hb]
    unfold evpDecrypt
    rw [if_neg (by simpa using wo)]
    simp only [wc.totalLen_eq, kNonceSize, kTagSize]
    rw [if_neg (by omega), if_neg (by omega), if_neg (by simp [EvpFault.none])]
    obtain ⟨r, h1, _, _, h4⟩ := setAad_spec .none aad 0 ⟨c.alg, c.key, nonce, [], []⟩ ia
    rw [h1, exec_bind_ok, h4 (fun _ => rfl) wa]
    have := decLoop_small L ct 0 ⟨c.alg, c.key, nonce, [] ++ flat aad, []⟩ [] out.bytes
      (flat ct).length [] ic wc rfl (by omega)
    simp only [List.nil_append, List.length_nil] at this
    simp only [List.nil_append]
    rw [this, exec_bind_ok, xorKs_zero, hol]
    rfl

/-- Two of three buffers fit. -/
example : (⟨.aes128gcm, [1]⟩ : Crypter).decrypt Lib.toy .none (zeros 12) []
      [.buf [1, 2], .null 0, .buf [3], .buf (4 :: zeros 16)] (.buf [9, 9, 9]) =
    .ok ⟨.invalidArgument, 0,
      .buf (Spec.stream (Lib.toy.ks .aes128gcm [1] (zeros 12)) [1, 2, 3])⟩ ∧
    fitting 3 [.buf [1, 2], .null 0, .buf [3], .buf (4 :: zeros 16)] = [1, 2, 3] := by
  decide +kernel

/-! ## C36: what counts as inside -/

/-- The accesses of which the model is built are defined exactly if they stay inside: a write, a
read, a part of a buffer, a byte of it, a difference of sizes. -/
theorem C36_outside_is_undefined (b w : Bytes) (off n : Nat) :
    ((∃ b', writeAt b off w = .ok b') ↔ off + w.length ≤ b.length) ∧
    ((∃ d, (Iovec.buf b).read off n = .ok d) ↔ off + n ≤ b.length) ∧
    ((∃ d, (Iovec.null n).read off n = .ok d) ↔ n = 0) ∧
    ((∃ v, (Iovec.buf b).slice off n = .ok v) ↔ off + n ≤ b.length) ∧
    ((∃ x, (Iovec.buf b).byteAt n = .ok x) ↔ n < b.length) ∧
    ((∃ k, subSize n off = .ok k) ↔ off ≤ n) := by
  refine ⟨?_, ?_, ?_, ?_, ?_, ?_⟩
  · unfold writeAt; split <;> simp_all
  · simp only [Iovec.read]; split <;> simp_all
  · simp only [Iovec.read]; split <;> simp_all
  · simp only [Iovec.slice]; split <;> simp_all
  · simp only [Iovec.byteAt]
    cases h : b[n]? with
    | none => have := List.getElem?_eq_none_iff.1 h; simp; omega
    | some x => have := (List.getElem?_eq_some_iff.1 h).1; simp [this]
  · unfold subSize; split <;> simp_all

/-- Witness: a write of two bytes at the end of a buffer of three, and one byte further. -/
example : (∃ b', writeAt [1, 2, 3] 1 [8, 9] = .ok b') ∧ ¬ ∃ b', writeAt [1, 2, 3] 2 [8, 9] = .ok b' :=
  ⟨⟨_, rfl⟩, fun ⟨_, h⟩ => by cases h⟩

end S2A.Aead
