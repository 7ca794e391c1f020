import Verif.Lemmas.TextCrypto
import Verif.Lemmas.HalfConnHist
import Verif.Spec.Text
/-
The messages of AEAD operations and key derivations are in the lists, and failures have one.
-/
namespace S2A
open Spec (AeadText KeyText aeadSentences aeadPrefixes keySentences)
open HalfConn (exec_bind_eq_ok)

theorem append_ne_empty (p t : String) (h : p ≠ "") : p ++ t ≠ "" := by
  intro h2
  exact h (String.append_eq_empty_iff.1 h2).1

variable {errs : String → Prop}

theorem aeadText_ne {t : String} (h : AeadText errs t) : t ≠ "" := by
  cases h with
  | sentence t h =>
    intro e
    subst e
    simp [aeadSentences] at h
  | queue p t hp _ =>
    refine append_ne_empty _ _ ?_
    intro e
    subst e
    simp [aeadPrefixes] at hp

theorem keyText_ne {t : String} (h : KeyText errs t) : t ≠ "" := by
  cases h with
  | sentence t h =>
    intro e
    subst e
    simp [keySentences] at h
  | queue t _ => exact append_ne_empty _ _ (by simp)

/-- What is shown of the message of a status: success has none, failure one that satisfies `P`. -/
structure Explains (P : String → Prop) (st : StatusCode) (m : String) : Prop where
  success : st = .ok → m = ""
  failure : st ≠ .ok → P m

theorem Explains.good {P : String → Prop} : Explains P .ok "" := ⟨fun _ => rfl, fun h => absurd rfl h⟩

theorem Explains.bad {P : String → Prop} {st : StatusCode} {m : String} (h : st ≠ .ok) (hm : P m) :
    Explains P st m := ⟨fun e => absurd e h, fun _ => hm⟩

namespace Aead

theorem setAadT_says {f : EvpFault} {q : String} (hq : errs q) {vs : List Iovec} {k : Nat}
    {c : Ctx} {e : StatusCode} {m : String} (h : setAadT f q k c vs = .ok (.error (e, m))) :
    Explains (AeadText errs) e m := by
  induction vs generalizing k c with
  | nil => cases h
  | cons v vs ih =>
    unfold setAadT at h
    split at h
    · exact ih h
    split at h
    · cases h
      refine .bad (by simp) (.sentence _ ?_)
      cases c.alg <;> simp [aadNullText, aeadSentences]
    · split at h
      · cases h
      split at h
      · cases h
        exact .bad (by simp) (.queue _ _ (by simp [aeadPrefixes]) hq)
      · exact ih h

theorem encLoopT_says {L : Lib} {f : EvpFault} {q : String} (hq : errs q) {vs : List Iovec}
    {k : Nat} {c : Ctx} {out : Bytes} {off rem : Nat} {ob : Bytes} {e : StatusCode} {m : String}
    (h : encLoopT L f q k c out off rem vs = .ok (ob, .error (e, m))) :
    Explains (AeadText errs) e m := by
  induction vs generalizing k c out off rem with
  | nil => cases h
  | cons v vs ih =>
    unfold encLoopT at h
    split at h
    · exact ih h
    split at h
    · cases h
      refine .bad (by simp) (.sentence _ ?_)
      cases c.alg <;> simp [plaintextNullText, aeadSentences]
    · split at h
      · cases h
        exact .bad (by simp) (.queue _ _ (by simp [aeadPrefixes]) hq)
      split at h
      · cases h
      split at h
      · cases h
        exact .bad (by simp) (.queue _ _ (by simp [aeadPrefixes]) hq)
      · simp only [exec_bind_eq_ok] at h
        obtain ⟨_, _, _, _, h⟩ := h
        exact ih h

theorem evpEncryptT_says {L : Lib} {f : EvpFault} {q : String} (hq : errs q) {alg : Alg}
    {key nonce : Bytes} {aad plaintext : List Iovec} {out : Iovec} {r : Result} {m : String}
    (h : evpEncryptT L f q alg key nonce aad plaintext out = .ok (r, m)) :
    Explains (AeadText errs) r.status m := by
  unfold evpEncryptT at h
  split at h
  · cases h
  split at h
  · cases h
    refine .bad (by simp) (.sentence _ ?_)
    cases alg <;> simp [nonceLengthText, aeadSentences]
  split at h
  · cases h
    refine .bad (by simp) (.queue _ _ ?_ hq)
    cases alg <;> simp [encryptInitText, aeadPrefixes]
  simp only [exec_bind_eq_ok] at h
  obtain ⟨x, hx, h⟩ := h
  split at h
  · cases h
    exact setAadT_says hq hx
  simp only [exec_bind_eq_ok] at h
  obtain ⟨y, hy, h⟩ := h
  split at h
  · cases h
    exact encLoopT_says hq hy
  split at h
  · cases h
    exact .bad (by simp) (.queue _ _ (by simp [aeadPrefixes]) hq)
  split at h
  · cases h
    refine .bad (by simp) (.sentence _ ?_)
    cases alg <;> simp [noRoomForTagText, aeadSentences]
  split at h
  · cases h
    exact .bad (by simp) (.queue _ _ (by simp [aeadPrefixes]) hq)
  simp only [exec_bind_eq_ok] at h
  obtain ⟨_, _, _, _, _, _, h⟩ := h
  cases h
  exact .good

theorem decLoopT_says {L : Lib} {f : EvpFault} {q : String} (hq : errs q) {vs : List Iovec}
    {k : Nat} {c : Ctx} {out : Bytes} {off rem total : Nat} {cur ob : Bytes} {e : StatusCode}
    {m : String} (h : decLoopT L f q k c out off rem total cur vs = .ok (ob, .error (e, m))) :
    Explains (AeadText errs) e m := by
  induction vs generalizing k c out off rem total cur with
  | nil => cases h
  | cons v vs ih =>
    unfold decLoopT at h
    split at h
    · cases h
    split at h
    · exact ih h
    split at h
    · cases h
      exact .bad (by simp) (.sentence _ (by simp [aeadSentences]))
    · next d _ =>
      simp only at h
      generalize (if d.length > total - kTagSize then total - kTagSize else d.length) = btw at h
      split at h
      · cases h
        exact .bad (by simp) (.sentence _ (by simp [aeadSentences]))
      split at h
      · cases h
      split at h
      · cases h
        exact .bad (by simp) (.queue _ _ (by simp [aeadPrefixes]) hq)
      · simp only [exec_bind_eq_ok] at h
        obtain ⟨_, _, _, _, _, _, h⟩ := h
        exact ih h

theorem evpDecryptT_says {L : Lib} {f : EvpFault} {q : String} (hq : errs q) {alg : Alg}
    {key nonce : Bytes} {aad ct : List Iovec} {out : Iovec} {r : Result} {m : String}
    (h : evpDecryptT L f q alg key nonce aad ct out = .ok (r, m)) :
    Explains (AeadText errs) r.status m := by
  unfold evpDecryptT at h
  split at h
  · cases h
  simp only at h
  split at h
  · cases h
    exact .bad (by simp) (.sentence _ (by simp [aeadSentences]))
  split at h
  · cases h
    refine .bad (by simp) (.sentence _ ?_)
    cases alg <;> simp [nonceLengthText, aeadSentences]
  split at h
  · cases h
    refine .bad (by simp) (.queue _ _ ?_ hq)
    cases alg <;> simp [decryptInitText, aeadPrefixes]
  simp only [exec_bind_eq_ok] at h
  obtain ⟨x, hx, h⟩ := h
  split at h
  · cases h
    exact setAadT_says hq hx
  simp only [exec_bind_eq_ok] at h
  obtain ⟨y, hy, h⟩ := h
  split at h
  · cases h
    exact decLoopT_says hq hy
  split at h
  · cases h
    exact .bad (by simp) (.queue _ _ (by simp [aeadPrefixes]) hq)
  simp only [exec_bind_eq_ok] at h
  obtain ⟨_, _, tag, _, h⟩ := h
  split at h
  · cases h
  split at h
  · cases h
    exact .bad (by simp) (.queue _ _ (by simp [aeadPrefixes]) hq)
  split at h
  · cases h
    exact .bad (by simp) (.queue _ _ (by simp [aeadPrefixes]) hq)
  simp only [exec_bind_eq_ok] at h
  obtain ⟨_, _, h⟩ := h
  cases h
  exact .good

theorem boringEncryptT_says {L : Lib} {f : EvpFault} {q : String} (hq : errs q) {alg : Alg}
    {key nonce : Bytes} {aad plaintext : List Iovec} {out : Iovec} {r : Result} {m : String}
    (h : boringEncryptT L f q alg key nonce aad plaintext out = .ok (r, m)) :
    Explains (AeadText errs) r.status m := by
  unfold boringEncryptT at h
  split at h
  · cases h
  split at h
  · cases h
    exact .bad (by simp) (.sentence _ (by simp [aeadSentences]))
  split at h
  · cases h
    exact .bad (by simp) (.sentence _ (by simp [aeadSentences]))
  simp only at h
  split at h
  · cases h
    exact .bad (by simp) (.sentence _ (by simp [aeadSentences]))
  split at h
  · cases h
    exact .bad (by simp) (.sentence _ (by simp [aeadSentences]))
  split at h
  · cases h
    exact .bad (by simp) (.queue _ _ (by simp [aeadPrefixes]) hq)
  simp only [exec_bind_eq_ok] at h
  obtain ⟨_, _, _, _, _, _, h⟩ := h
  cases h
  exact .good

theorem boringDecryptT_says {L : Lib} {f : EvpFault} {q : String} (hq : errs q) {alg : Alg}
    {key nonce : Bytes} {aad ct : List Iovec} {out : Iovec} {r : Result} {m : String}
    (h : boringDecryptT L f q alg key nonce aad ct out = .ok (r, m)) :
    Explains (AeadText errs) r.status m := by
  unfold boringDecryptT at h
  split at h
  · cases h
  simp only at h
  split at h
  · cases h
    exact .bad (by simp) (.sentence _ (by simp [aeadSentences]))
  split at h
  · cases h
    exact .bad (by simp) (.sentence _ (by simp [aeadSentences]))
  split at h
  · cases h
    exact .bad (by simp) (.sentence _ (by simp [aeadSentences]))
  split at h
  · cases h
    exact .bad (by simp) (.sentence _ (by simp [aeadSentences]))
  split at h
  · cases h
    exact .bad (by simp) (.sentence _ (by simp [aeadSentences]))
  split at h
  · cases h
    exact .bad (by simp) (.queue _ _ (by simp [aeadPrefixes]) hq)
  simp only [exec_bind_eq_ok] at h
  obtain ⟨_, _, _, _, _, _, h⟩ := h
  cases h
  exact .good

theorem encryptT_says {L : Lib} {f : EvpFault} {q : String} (hq : errs q) {c : Crypter}
    {nonce : Bytes} {aad plaintext : List Iovec} {out : Iovec} {r : Result} {m : String}
    (h : c.encryptT L f q nonce aad plaintext out = .ok (r, m)) :
    Explains (AeadText errs) r.status m := by
  unfold Crypter.encryptT at h
  split at h
  · exact boringEncryptT_says hq h
  · exact evpEncryptT_says hq h

theorem decryptT_says {L : Lib} {f : EvpFault} {q : String} (hq : errs q) {c : Crypter}
    {nonce : Bytes} {aad ct : List Iovec} {out : Iovec} {r : Result} {m : String}
    (h : c.decryptT L f q nonce aad ct out = .ok (r, m)) :
    Explains (AeadText errs) r.status m := by
  unfold Crypter.decryptT at h
  split at h
  · exact boringDecryptT_says hq h
  · exact evpDecryptT_says hq h

theorem createAesGcmT_says {fail : Bool} {q : String} (hq : errs q) {key : Bytes}
    {e : StatusCode} {m : String} (h : createAesGcmT fail q key = .error (e, m)) :
    KeyText errs m := by
  unfold createAesGcmT at h
  split at h
  · split at h
    · cases h; exact .queue _ hq
    · cases h
  split at h
  · split at h
    · cases h; exact .queue _ hq
    · cases h
  · cases h; exact .sentence _ (by simp [keySentences])

theorem createChachaPolyT_says {fail : Bool} {q : String} (hq : errs q) {key : Bytes}
    {e : StatusCode} {m : String} (h : createChachaPolyT fail q key = .error (e, m)) :
    KeyText errs m := by
  unfold createChachaPolyT at h
  split at h
  · cases h; exact .sentence _ (by simp [keySentences])
  split at h
  · cases h; exact .queue _ hq
  · cases h

end Aead

namespace Hkdf

theorem loopT_says {L : Lib} {h : HashFn} {f : HkdfFault} {late : Bool} {prk info : Bytes}
    {k i : Nat} {buffer : Bytes} {done : Nat} {out : Bytes} {x : StatusCode × Bytes} {m : String}
    (hx : loopT L h f late prk info k i buffer done out = .ok (x, m)) :
    Explains (KeyText errs) x.1 m := by
  induction k generalizing i buffer done out with
  | zero => cases hx; exact .good
  | succ k ih =>
    unfold loopT at hx
    split at hx
    · cases hx
      refine .bad (by simp) (.sentence _ ?_)
      split <;> simp [keySentences]
    · simp only [exec_bind_eq_ok] at hx
      obtain ⟨_, _, _, _, hx⟩ := hx
      exact ih hx

theorem deriveSecretT_says {L : Lib} {f : HkdfFault} {late : Bool} {h : HashFn}
    {prk info out : Bytes} {x : StatusCode × Bytes} {m : String}
    (hx : deriveSecretT L f late h prk info out = .ok (x, m)) :
    Explains (KeyText errs) x.1 m := by
  unfold deriveSecretT at hx
  split at hx
  · cases hx
    exact .bad (by simp) (.sentence _ (by simp [keySentences]))
  split at hx
  · cases hx
    exact .bad (by simp) (.sentence _ (by simp [keySentences]))
  simp only at hx
  split at hx
  · cases hx
    exact .bad (by simp) (.sentence _ (by simp [keySentences]))
  split at hx
  · cases hx
    exact .bad (by simp) (.sentence _ (by simp [keySentences]))
  unfold derivationT at hx
  split at hx
  · cases hx
    exact .bad (by simp) (.sentence _ (by simp [keySentences]))
  · exact loopT_says hx

end Hkdf

theorem deriveLabelT_says {L : Lib} {f : HkdfFault} {late : Bool} {cs : Ciphersuite}
    {suffix secret output : Bytes} {x : StatusCode × Bytes} {m : String}
    (hx : deriveLabelT L f late cs suffix secret output = .ok (x, m)) :
    Explains (KeyText errs) x.1 m := by
  unfold deriveLabelT at hx
  split at hx
  · next e he =>
    cases hx
    refine .bad ?_ (.sentence _ (by simp [keySentences]))
    cases cs <;> simp [ciphersuiteToHash] at he
    subst he
    simp
  · exact Hkdf.deriveSecretT_says hx

namespace HalfConn

theorem createT_says {L : Lib} {f : KeyFault} {x : LibText} (hq : errs x.queue)
    {cs : Ciphersuite} {n : UInt64} {secret : Bytes} {c : StatusCode} {m : String}
    (h : createT L f x cs n secret = .ok (.error (c, m))) : KeyText errs m := by
  unfold createT at h
  split at h
  · cases h
    exact .sentence _ (by simp [keySentences])
  split at h
  · cases h
    exact .sentence _ (by simp [keySentences])
  simp only [exec_bind_eq_ok] at h
  obtain ⟨y, hy, h⟩ := h
  have e1 := deriveLabelT_says (errs := errs) hy
  split at h
  · next hst =>
    cases h
    exact e1.failure hst
  simp only [exec_bind_eq_ok] at h
  obtain ⟨z, hz, h⟩ := h
  have e2 := deriveLabelT_says (errs := errs) hz
  split at h
  · next hst =>
    cases h
    exact e2.failure hst
  split at h
  · next e he =>
    cases h
    unfold createAeadT at he
    split at he
    · exact Aead.createAesGcmT_says hq he
    · exact Aead.createAesGcmT_says hq he
    · exact Aead.createChachaPolyT_says hq he
    · cases he
      exact .sentence _ (by simp [keySentences])
  · cases h

/-- The message of a half connection that is not usable. -/
abbrev unusable : String := "|S2AHalfConnection| is in unusable state."

theorem encryptT_says {L : Lib} {f : EvpFault} {q : String} (hq : errs q) {hc : HalfConn}
    {aad plaintext : List Iovec} {out : Iovec} {x : HalfConn × Option AeadCall × Aead.Result}
    {m : String} (h : hc.encryptT L f q aad plaintext out = .ok (x, m)) :
    Explains (fun m => m = unusable ∨ AeadText errs m) x.2.2.status m := by
  unfold encryptT at h
  split at h
  · cases h
    exact .bad (by simp) (Or.inl rfl)
  · simp only [exec_bind_eq_ok] at h
    obtain ⟨y, _, z, hz, h⟩ := h
    cases h
    have := Aead.encryptT_says hq hz
    exact ⟨this.success, fun hs => Or.inr (this.failure hs)⟩

theorem decryptT_says {L : Lib} {f : EvpFault} {q : String} (hq : errs q) {hc : HalfConn}
    {aad ct : List Iovec} {out : Iovec} {x : HalfConn × Option AeadCall × Aead.Result}
    {m : String} (h : hc.decryptT L f q aad ct out = .ok (x, m)) :
    Explains (fun m => m = unusable ∨ AeadText errs m) x.2.2.status m := by
  unfold decryptT at h
  split at h
  · cases h
    exact .bad (by simp) (Or.inl rfl)
  · simp only [exec_bind_eq_ok] at h
    obtain ⟨y, _, z, hz, h⟩ := h
    cases h
    have := Aead.decryptT_says hq hz
    exact ⟨this.success, fun hs => Or.inr (this.failure hs)⟩

end HalfConn
end S2A
