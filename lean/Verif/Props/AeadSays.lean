import Verif.Props.CryptoStatus
import Verif.Lemmas.AeadSays
/-
C123: what the message of a failing AEAD operation says is so.
-/
namespace S2A.Aead
open HalfConn (exec_bind_eq_ok)
open Spec (SealSays OpenSays OneCall)

theorem nonceLengthText_eq (c : Crypter) : nonceLengthText c.alg =
    Spec.words c "|nonce| does not have the correct length." "|nonce| has invalid length." := by
  unfold Spec.words; cases c.alg <;> rfl

theorem aadNullText_eq (c : Crypter) : aadNullText c.alg =
    Spec.words c "Non-zero aad length but aad is nullptr."
      "non-zero aad length but |aad| is nullptr." := by
  unfold Spec.words; cases c.alg <;> rfl

theorem plaintextNullText_eq (c : Crypter) : plaintextNullText c.alg =
    Spec.words c "|plaintext| has an invalid component."
      "non-zero plaintext length but plaintext is nullptr." := by
  unfold Spec.words; cases c.alg <;> rfl

theorem noRoomForTagText_eq (c : Crypter) : noRoomForTagText c.alg =
    Spec.words c "|ciphertext_and_tag| is too small to hold a tag."
      "|ciphertext_and_tag| is too small to hold the resulting ciphertext and tag." := by
  unfold Spec.words; cases c.alg <;> rfl

theorem encryptInitText_eq (c : Crypter) : encryptInitText c.alg =
    Spec.words c "Initializing AES-GCM nonce failed. " "Initializing Chacha-Poly nonce failed. " := by
  unfold Spec.words; cases c.alg <;> rfl

theorem decryptInitText_eq (c : Crypter) : decryptInitText c.alg =
    Spec.words c "Initializing AES-GCM nonce failed. " "Initializing ChachaPoly nonce failed. " := by
  unfold Spec.words; cases c.alg <;> rfl

/-- `Encrypt`, for all arguments and all failures of the library, in all builds: OK without a
message, or a status and a message that say what was wrong. -/
theorem C123_encrypt_says (L : Lib) (f : EvpFault) (errs : String) (c : Crypter) (nonce : Bytes)
    (aad pt : List Iovec) (ob : Bytes) (r : Result) (m : String)
    (h1 : c.encryptT L f errs nonce aad pt (.buf ob) = .ok (r, m)) :
    r.status = .ok ∧ m = "" ∨ SealSays L c f errs nonce aad pt ob.length r.status m := by
  have hk16 : kTagSize = 16 := rfl
  unfold Crypter.encryptT at h1
  by_cases hb : OneCall L c
  · have sub : ∀ {e x y}, SealSays L c f errs nonce aad pt ob.length e (Spec.words c x y) →
        SealSays L c f errs nonce aad pt ob.length e y := fun {e x y} h => by
      rwa [show Spec.words c x y = y from if_pos hb.2] at h
    rw [if_pos (by simp [hb.1, hb.2])] at h1
    unfold boringEncryptT at h1
    simp only at h1
    split at h1
    · next h => cases h1; exact Or.inr (sub (.nonce h))
    split at h1
    · next h =>
      cases h1
      refine Or.inr (sub (.dataNull fun g => ?_))
      rw [hasBadNull_false.2 g] at h
      cases h
    next hd =>
    have hwp : AllWF pt := hasBadNull_false.1 (by simpa using hd)
    have hlen := hwp.totalLen_eq
    split at h1
    · next h => cases h1; exact Or.inr (sub (.noTag hwp (by omega)))
    split at h1
    · next h =>
      cases h1
      refine Or.inr (sub (.aadNull fun g => ?_))
      rw [hasBadNull_false.2 g] at h
      cases h
    split at h1
    · next h => cases h1; exact Or.inr (SealSays.callFails hb h)
    · simp only [exec_bind_eq_ok] at h1
      obtain ⟨_, _, _, _, _, _, h1⟩ := h1
      cases h1
      exact Or.inl ⟨rfl, rfl⟩
  · rw [if_neg (by simpa [OneCall] using hb)] at h1
    unfold evpEncryptT at h1
    simp only at h1
    split at h1
    · next h => cases h1; exact Or.inr (nonceLengthText_eq c ▸ SealSays.nonce h)
    split at h1
    · next h => cases h1; exact Or.inr (encryptInitText_eq c ▸ SealSays.initFails hb h)
    simp only [exec_bind_eq_ok] at h1
    obtain ⟨x, hx, h1⟩ := h1
    cases x with
    | error e =>
      obtain ⟨e, t⟩ := e
      cases h1
      rcases setAadT_error hx with ⟨rfl, rfl, e2⟩ | ⟨rfl, rfl, j, v, e2, e3, e4⟩
      · exact Or.inr (aadNullText_eq c ▸ SealSays.aadNull e2)
      · exact Or.inr (SealSays.aadFails hb ⟨j, v, e2, e3, by simpa using e4⟩)
    | ok cx =>
      have hcx := (setAadT_fine hx).1
      simp only [exec_bind_eq_ok] at h1
      obtain ⟨⟨ob1, y⟩, hy, h1⟩ := h1
      cases y with
      | error e =>
        obtain ⟨e, t⟩ := e
        cases h1
        rcases encLoopT_error hy with ⟨rfl, rfl, e2⟩ | ⟨rfl, rfl, e2⟩ | ⟨rfl, rfl, j, v, e2, e3, e4⟩
        · rw [hcx]
          exact Or.inr (plaintextNullText_eq c ▸ SealSays.dataNull e2)
        · exact Or.inr (SealSays.tooSmall hb e2)
        · exact Or.inr (SealSays.dataFails hb ⟨j, v, e2, e3, by simpa using e4⟩)
      | ok s =>
        obtain ⟨c', off, rem⟩ := s
        obtain ⟨hw, hl⟩ := encLoopT_fine hy
        simp only at h1
        split at h1
        · next h => cases h1; exact Or.inr (SealSays.finalFails hb h)
        split at h1
        · next h => cases h1; exact Or.inr (noRoomForTagText_eq c ▸ SealSays.noTag hw (by omega))
        split at h1
        · next h => cases h1; exact Or.inr (SealSays.tagFails hb h)
        simp only [exec_bind_eq_ok] at h1
        obtain ⟨_, _, _, _, _, _, h1⟩ := h1
        cases h1
        exact Or.inl ⟨rfl, rfl⟩

/-- `Decrypt`, likewise.  That the tag is said not to match only if it does not is part of this. -/
theorem C123_decrypt_says (L : Lib) (f : EvpFault) (errs : String) (c : Crypter) (nonce : Bytes)
    (aad ct : List Iovec) (out : Iovec) (ha : IntLens aad) (hc : IntLens ct) (r : Result) (m : String)
    (h1 : c.decryptT L f errs nonce aad ct out = .ok (r, m)) :
    r.status = .ok ∧ m = "" ∨ OpenSays L c f errs nonce aad ct out.len r.status m := by
  have hk16 : kTagSize = 16 := rfl
  have hm : c.decrypt L f nonce aad ct out = .ok r := by
    rw [← decryptT_mute L f errs, h1]; rfl
  have hst := C102_decrypt_status L f c nonce aad ct out ha hc r hm
  unfold Crypter.decryptT at h1
  have ho : out.WF := by
    by_cases h : out.WF
    · exact h
    · unfold boringDecryptT evpDecryptT at h1
      simp [h] at h1
  have hol : out.bytes.length = out.len := ho.len_eq.symm
  unfold Spec.OpenFails at hst
  by_cases hb : OneCall L c
  · have sub : ∀ {e x y}, OpenSays L c f errs nonce aad ct out.len e (Spec.words c x y) →
        OpenSays L c f errs nonce aad ct out.len e y := fun {e x y} h => by
      rwa [show Spec.words c x y = y from if_pos hb.2] at h
    simp only [if_pos (show L.boring = true ∧ c.alg = .chachaPoly from hb)] at hst
    rw [if_pos (by simp [hb.1, hb.2])] at h1
    unfold boringDecryptT at h1
    rw [if_neg (by simpa using ho)] at h1
    simp only at h1
    split at h1
    · next h => cases h1; exact Or.inr (sub (.nonce h))
    split at h1
    · next h =>
      cases h1
      refine Or.inr (OpenSays.dataNull' hb fun g => ?_)
      rw [hasBadNull_false.2 g] at h
      cases h
    split at h1
    · next h => cases h1; exact Or.inr (OpenSays.noTag h)
    split at h1
    · next h => cases h1; exact Or.inr (OpenSays.tooSmall' hb (by omega))
    split at h1
    · next h =>
      cases h1
      refine Or.inr (sub (.aadNull fun g => ?_))
      rw [hasBadNull_false.2 g] at h
      cases h
    split at h1
    · cases h1
      refine Or.inr (OpenSays.forged' hb ?_)
      rcases hst with ⟨h, _⟩ | ⟨h, _⟩ | ⟨_, h⟩
      · cases h
      · cases h
      · exact h.imp id (·.2)
    · simp only [exec_bind_eq_ok] at h1
      obtain ⟨_, _, _, _, _, _, h1⟩ := h1
      cases h1
      exact Or.inl ⟨rfl, rfl⟩
  · simp only [if_neg (show ¬ (L.boring = true ∧ c.alg = .chachaPoly) from hb)] at hst
    rw [if_neg (by simpa [OneCall] using hb)] at h1
    unfold evpDecryptT at h1
    rw [if_neg (by simpa using ho)] at h1
    simp only at h1
    split at h1
    · next h => cases h1; exact Or.inr (OpenSays.noTag h)
    split at h1
    · next h => cases h1; exact Or.inr (nonceLengthText_eq c ▸ OpenSays.nonce h)
    split at h1
    · next h => cases h1; exact Or.inr (decryptInitText_eq c ▸ OpenSays.initFails hb h)
    next hinit =>
    simp only [exec_bind_eq_ok] at h1
    obtain ⟨x, hx, h1⟩ := h1
    cases x with
    | error e =>
      obtain ⟨e, t⟩ := e
      cases h1
      rcases setAadT_error hx with ⟨rfl, rfl, e2⟩ | ⟨rfl, rfl, j, v, e2, e3, e4⟩
      · exact Or.inr (aadNullText_eq c ▸ OpenSays.aadNull e2)
      · exact Or.inr (OpenSays.aadFails hb ⟨j, v, e2, e3, by simpa using e4⟩)
    | ok cx =>
      have haad := (setAad_fine (setAadT_fine hx).2).2
      simp only [exec_bind_eq_ok] at h1
      obtain ⟨⟨ob1, y⟩, hy, h1⟩ := h1
      cases y with
      | error e =>
        obtain ⟨e, t⟩ := e
        cases h1
        rcases decLoopT_error hy with
          ⟨rfl, rfl, e2⟩ | ⟨rfl, rfl, e2⟩ | ⟨rfl, rfl, j, v, e2, e3, e4, e5⟩
        · exact Or.inr (OpenSays.dataNull hb e2)
        · exact Or.inr (OpenSays.tooSmall hb (by omega))
        · exact Or.inr (OpenSays.dataFails hb ⟨j, v, e2, e3, e4, by simpa using e5⟩)
      | ok s =>
        have hy' : decLoop L f 0 cx out.bytes 0 out.bytes.length (totalLen ct) [] ct =
            .ok (ob1, .ok s) := by
          rw [← decLoopT_quiet L f errs, hy]; rfl
        have htot := decLoop_total hy' (Or.inl (Nat.le_refl _))
        have hupd := (decLoop_fine hy').2.2
        simp only at h1
        rw [if_neg (by omega)] at h1
        simp only [exec_bind_eq_ok] at h1
        obtain ⟨t1, _, t2, _, h1⟩ := h1
        split at h1
        · cases h1
        split at h1
        · next h => cases h1; exact Or.inr (OpenSays.tagFails hb h)
        next htag =>
        split at h1
        · cases h1
          refine Or.inr (OpenSays.forged hb ?_)
          rcases hst with ⟨h, _⟩ | ⟨h, _⟩ | ⟨_, h⟩
          · cases h
          · cases h
          · rcases h with (h | ⟨j, v, e2, e3, e4⟩ | ⟨j, v, e2, e3, e4, e5⟩ | h | h) | h
            · exact absurd h hinit
            · rw [show j = 0 + j by omega, haad j v e2 e3] at e4; cases e4
            · rw [show j = 0 + j by omega, hupd j v e2 e3 e4] at e5; cases e5
            · exact Or.inl h
            · exact absurd h htag
            · exact Or.inr h.2
        · simp only [exec_bind_eq_ok] at h1
          obtain ⟨_, _, h1⟩ := h1
          cases h1
          exact Or.inl ⟨rfl, rfl⟩

/-- Messages of `Encrypt`: associated data without a pointer, plaintext without a pointer, an output
buffer without room for the tag, a failing call; AES-GCM, ChaCha20-Poly1305 in both builds. -/
example :
    ((⟨.aes128gcm, zeros 16⟩ : Crypter).encryptT (Lib.toy true) .none "E" (zeros 12) [.null 1]
      [.buf [1]] (.buf (zeros 17))).toOption.map (·.2) =
        some "Non-zero aad length but aad is nullptr." ∧
    ((⟨.chachaPoly, zeros 32⟩ : Crypter).encryptT (Lib.toy false) .none "E" (zeros 12) [.null 1]
      [.buf [1]] (.buf (zeros 17))).toOption.map (·.2) =
        some "non-zero aad length but |aad| is nullptr." ∧
    ((⟨.chachaPoly, zeros 32⟩ : Crypter).encryptT (Lib.toy true) .none "E" (zeros 12) []
      [.null 1] (.buf (zeros 17))).toOption.map (·.2) =
        some "non-zero plaintext length but plaintext is nullptr." ∧
    ((⟨.aes256gcm, zeros 32⟩ : Crypter).encryptT (Lib.toy true) .none "E" (zeros 12) []
      [.buf [1]] (.buf (zeros 16))).toOption.map (·.2) =
        some "|ciphertext_and_tag| is too small to hold a tag." ∧
    ((⟨.aes256gcm, zeros 32⟩ : Crypter).encryptT (Lib.toy true) { EvpFault.none with final := true }
      "E" (zeros 12) [] [.buf [1]] (.buf (zeros 17))).toOption.map (·.2) =
        some "Finalizing encryption failed. E" := by decide +kernel

/-- Messages of `Decrypt`: a wrong tag in both kinds of operation, too few bytes, an output buffer
that is too small. -/
example :
    ((⟨.aes128gcm, zeros 16⟩ : Crypter).decryptT (Lib.toy true) .none "E" (zeros 12) []
      [.buf (1 :: zeros 16)] (.buf (zeros 1))).toOption.map (fun x => (x.1.status, x.2)) =
        some (.internal, "Checking tag failed: E") ∧
    ((⟨.chachaPoly, zeros 32⟩ : Crypter).decryptT (Lib.toy true) .none "E" (zeros 12) []
      [.buf (1 :: zeros 16)] (.buf (zeros 1))).toOption.map (fun x => (x.1.status, x.2)) =
        some (.internal, "open operation failed. E") ∧
    ((⟨.chachaPoly, zeros 32⟩ : Crypter).decryptT (Lib.toy false) .none "E" (zeros 12) []
      [.buf (zeros 15)] (.buf (zeros 1))).toOption.map (fun x => (x.1.status, x.2)) =
        some (.invalidArgument, "|ciphertext_and_tag| is too small to hold a tag.") ∧
    ((⟨.chachaPoly, zeros 32⟩ : Crypter).decryptT (Lib.toy false) .none "E" (zeros 12) []
      [.buf (zeros 18)] (.buf (zeros 1))).toOption.map (fun x => (x.1.status, x.2)) =
        some (.invalidArgument, "|plaintext| is too small to hold the decrypted ciphertext.") := by
  decide +kernel

end S2A.Aead

namespace S2A.Hkdf
open Spec (HkdfSays)

/-- `HkdfDeriveSecret`, for all arguments and all failures of the library: OK without a message, or a
status and a message that say what was wrong. -/
theorem C123_hkdf_says (L : Lib) (f : HkdfFault) (late : Bool) (h : HashFn) (prk info out out' : Bytes)
    (st : StatusCode) (m : String)
    (hr : deriveSecretT L f late h prk info out = .ok ((st, out'), m)) :
    st = .ok ∧ m = "" ∨ HkdfSays f late h prk out.length st m := by
  have key : ∀ h : HashFn, h.digestSize = 32 ∨ h.digestSize = 48 →
      (if prk.length < h.digestSize then
        .ok ((.invalidArgument, out),
          "The size of |prk| must be at least the digest size of |hash_function|.")
      else
        let n := (out.length + h.digestSize - 1) / h.digestSize
        if n > 255 then .ok ((.internal, out), "Extracting too many bytes.")
        else if f.ctxNew then .ok ((.internal, out), "Could not generate new HMAC context.")
        else derivationT L h f late n prk info out : Exec ((StatusCode × Bytes) × String)) =
          .ok ((st, out'), m) →
      st = .ok ∧ m = "" ∨ HkdfSays f late h prk out.length st m := by
    intro h hd hr
    split at hr
    · next hp => cases hr; exact Or.inr (.key hp)
    simp only at hr
    split at hr
    · cases hr
      refine Or.inr (.tooLong ?_)
      rcases hd with hd | hd <;> simp only [hd] at * <;> omega
    split at hr
    · next hf => cases hr; exact Or.inr (.noContext hf)
    unfold derivationT at hr
    split at hr
    · next hf => cases hr; exact Or.inr (.initFails hf)
    rcases loopT_message hr with h1 | ⟨j, h1, h2, rfl, rfl⟩
    · exact Or.inl h1
    · have hj : j * h.digestSize < out.length := by
        rcases hd with hd | hd <;> simp only [hd] at * <;> omega
      right
      split
      · next hl => exact .blockFails j hj h2 (by simpa using hl)
      · next hl =>
        simp only [Bool.or_eq_true, decide_eq_true_eq, not_or, Bool.not_eq_true] at hl
        exact .againFails j hj h2 hl.1 hl.2
  cases h with
  | other => cases hr; exact Or.inr (.hash (by simp) (by simp))
  | sha256 => exact key .sha256 (Or.inl rfl) hr
  | sha384 => exact key .sha384 (Or.inr rfl) hr

/-- A key that is too short, too many bytes, and a failure in the second block. -/
example :
    (deriveSecretT (Lib.toy true) .none false .sha384 (zeros 47) [] (zeros 3)).toOption.map (·.2) =
      some "The size of |prk| must be at least the digest size of |hash_function|." ∧
    (deriveSecretT (Lib.toy true) .none false .sha256 (zeros 32) [] (zeros (255 * 32 + 1))).toOption.map
      (·.2) = some "Extracting too many bytes." ∧
    (deriveSecretT (Lib.toy true) { HkdfFault.none with step := fun i => i = 1 } false .sha256 (zeros 32)
      [] (zeros 33)).toOption.map (·.2) = some "Updating HMAC failed." ∧
    (deriveSecretT (Lib.toy true) { HkdfFault.none with step := fun i => i = 1 } false .sha256 (zeros 32)
      [] (zeros 32)).toOption.map (·.2) = some "" := by decide +kernel

end S2A.Hkdf

namespace S2A.HalfConn
open Spec (SealSays OpenSays)
open Aead (IntLens)

/-- `Encrypt` of a half connection: as that of its crypter, with the nonce of the call; or the half
connection is in an unusable state, and the message says so. -/
theorem C123_half_encrypt_says (L : Lib) (f : EvpFault) (errs : String) (hc hc' : HalfConn)
    (aad pt : List Iovec) (ob : Bytes) (call : Option AeadCall) (r : Aead.Result) (m : String)
    (h : hc.encryptT L f errs aad pt (.buf ob) = .ok ((hc', call, r), m)) :
    r.status = .ok ∧ m = "" ∨
    (hc.alwaysFail = true ∨ hc.overflowed = true) ∧ call = none ∧ r = ⟨.internal, 0, .buf ob⟩ ∧
      m = "|S2AHalfConnection| is in unusable state." ∨
    ∃ a, call = some a ∧ hc.alwaysFail = false ∧ hc.overflowed = false ∧
      SealSays L hc.aead f errs a.nonce aad pt ob.length r.status m := by
  unfold encryptT at h
  split at h
  · next hu => cases h; exact Or.inr (Or.inl ⟨by simpa using hu, rfl, rfl, rfl⟩)
  · next hu =>
    simp only [Bool.or_eq_true, not_or, Bool.not_eq_true] at hu
    simp only [exec_bind_eq_ok] at h
    obtain ⟨⟨n, c⟩, _, ⟨r', m'⟩, h1, h⟩ := h
    cases h
    rcases Aead.C123_encrypt_says L f errs _ _ aad pt ob _ _ h1 with h | h
    · exact Or.inl h
    · exact Or.inr (Or.inr ⟨_, rfl, hu.1, hu.2, h⟩)

/-- `Decrypt` of a half connection. -/
theorem C123_half_decrypt_says (L : Lib) (f : EvpFault) (errs : String) (hc hc' : HalfConn)
    (aad ct : List Iovec) (out : Iovec) (ha : IntLens aad) (hi : IntLens ct) (call : Option AeadCall)
    (r : Aead.Result) (m : String)
    (h : hc.decryptT L f errs aad ct out = .ok ((hc', call, r), m)) :
    r.status = .ok ∧ m = "" ∨
    (hc.alwaysFail = true ∨ hc.overflowed = true) ∧ call = none ∧ r = ⟨.internal, 0, out⟩ ∧
      m = "|S2AHalfConnection| is in unusable state." ∨
    ∃ a, call = some a ∧ hc.alwaysFail = false ∧ hc.overflowed = false ∧
      OpenSays L hc.aead f errs a.nonce aad ct out.len r.status m := by
  unfold decryptT at h
  split at h
  · next hu => cases h; exact Or.inr (Or.inl ⟨by simpa using hu, rfl, rfl, rfl⟩)
  · next hu =>
    simp only [Bool.or_eq_true, not_or, Bool.not_eq_true] at hu
    simp only [exec_bind_eq_ok] at h
    obtain ⟨⟨n, c⟩, _, ⟨r', m'⟩, h1, h⟩ := h
    cases h
    rcases Aead.C123_decrypt_says L f errs _ _ aad ct out ha hi _ _ h1 with h | h
    · exact Or.inl h
    · exact Or.inr (Or.inr ⟨_, rfl, hu.1, hu.2, h⟩)

/-- A half connection whose sequence number has overflowed, and one that seals into a buffer that is
too small. -/
example :
    let hc : HalfConn := ⟨.aes128GcmSha256, 16, 0, true, false, zeros 12, zeros 32, ⟨.aes128gcm, zeros 16⟩⟩
    (hc.encryptT (Lib.toy true) .none "q" [] [.buf [1]] (.buf (zeros 17))).toOption.map (·.2) =
      some "|S2AHalfConnection| is in unusable state." ∧
    (({ hc with overflowed := false } : HalfConn).encryptT (Lib.toy true) .none "q" [] [.buf [1]]
      (.buf (zeros 16))).toOption.map (·.2) = some "|ciphertext_and_tag| is too small to hold a tag." ∧
    (({ hc with overflowed := false } : HalfConn).decryptT (Lib.toy true) .none "q" [] [.buf [1]]
      (.buf (zeros 16))).toOption.map (·.2) = some "|ciphertext_and_tag| is too small to hold a tag." := by
  decide +kernel

end S2A.HalfConn

namespace S2A.Aead

/-- Creating an AES-GCM crypter fails exactly if the key has a wrong size or the library fails, and
the message says which. -/
theorem C123_create_aes_says (fail : Bool) (errs : String) (key : Bytes) (e : StatusCode) (m : String) :
    createAesGcmT fail errs key = .error (e, m) ↔
      key.length ≠ 16 ∧ key.length ≠ 32 ∧ e = .failedPrecondition ∧
        m = "AES-GCM key size is not supported." ∨
      (key.length = 16 ∨ key.length = 32) ∧ fail = true ∧ e = .internal ∧
        m = "Initialization of |EVP_AEAD_CTX| failed: " ++ errs := by
  have h1 : kAes128KeySize = 16 := rfl
  have h2 : kAes256KeySize = 32 := rfl
  unfold createAesGcmT
  simp only [h1, h2]
  by_cases a : key.length = 16
  · cases fail <;> simp [a, eq_comm]
  · by_cases b : key.length = 32
    · cases fail <;> simp [b, eq_comm]
    · simp [a, b, eq_comm]

/-- The same for ChaCha20-Poly1305. -/
theorem C123_create_chacha_says (fail : Bool) (errs : String) (key : Bytes) (e : StatusCode)
    (m : String) :
    createChachaPolyT fail errs key = .error (e, m) ↔
      key.length ≠ 32 ∧ e = .invalidArgument ∧ m = "Key size is unsupported." ∨
      key.length = 32 ∧ fail = true ∧ e = .internal ∧
        m = "Initialization of |EVP_AEAD_CTX| failed: " ++ errs := by
  have h1 : kChachaKeySize = 32 := rfl
  unfold createChachaPolyT
  simp only [h1]
  by_cases a : key.length = 32
  · cases fail <;> simp [a, eq_comm]
  · simp [a, eq_comm]

/-- A key of 24 bytes, and a library that fails. -/
example : createAesGcmT true "q" (zeros 24) =
      .error (.failedPrecondition, "AES-GCM key size is not supported.") ∧
    createChachaPolyT true "q" (zeros 32) =
      .error (.internal, "Initialization of |EVP_AEAD_CTX| failed: q") := by decide +kernel

end S2A.Aead
