import Verif.Lemmas.Record
import Verif.Lemmas.HalfConnHist
/-
Which status a call returns that fails only because the library fails.
-/
namespace S2A.Aead
open HalfConn (exec_bind_eq_ok)

theorem setAad_internal {f : EvpFault} {vs : List Iovec} {k : Nat} {c : Ctx} {e : StatusCode}
    (hw : AllWF vs) (h : setAad f k c vs = .ok (.error e)) : e = .internal := by
  induction vs generalizing k c with
  | nil => simp [setAad] at h
  | cons v vs ih =>
    have hw' : AllWF vs := fun x hx => hw x (by simp [hx])
    unfold setAad at h
    split at h
    · exact ih hw' h
    · next hl =>
      cases v with
      | null n => exact absurd (hw (.null n) (by simp)) (by simpa [Iovec.WF, Iovec.len] using hl)
      | buf d =>
        simp only at h
        split at h
        · cases h
        · split at h
          · simp at h; exact h.symm
          · exact ih hw' h

theorem encLoop_internal {L : Lib} {f : EvpFault} {vs : List Iovec} {k : Nat} {c : Ctx}
    {out ob : Bytes} {off rem : Nat} {e : StatusCode} (hw : AllWF vs)
    (hr : (flat vs).length ≤ rem)
    (h : encLoop L f k c out off rem vs = .ok (ob, .error e)) : e = .internal := by
  induction vs generalizing k c out off rem with
  | nil => simp [encLoop] at h
  | cons v vs ih =>
    have hw' : AllWF vs := fun x hx => hw x (by simp [hx])
    rw [flat_cons, List.length_append] at hr
    unfold encLoop at h
    split at h
    · exact ih hw' (by omega) h
    · next hl =>
      cases v with
      | null n => exact absurd (hw (.null n) (by simp)) (by simpa [Iovec.WF, Iovec.len] using hl)
      | buf d =>
        simp only [Iovec.bytes] at h hr
        rw [if_neg (by omega)] at h
        split at h
        · cases h
        · split at h
          · simp at h; exact h.2.symm
          · have hlen : (c.encUpdate L d).1.length = d.length := by
              simp only [Ctx.encUpdate, xorKs_eq_mapIdx, List.length_mapIdx]
            cases hw1 : writeAt out off (c.encUpdate L d).1 with
            | error u => simp [hw1] at h
            | ok o' =>
              rw [hw1] at h
              simp only [exec_bind_ok, hlen] at h
              rw [subSize_ok (by omega)] at h
              simp only [exec_bind_ok] at h
              exact ih hw' (by omega) h

/-- A call with good arguments that fails returns an internal error. -/
theorem encrypt_internal {L : Lib} {f : EvpFault} {c : Crypter} {nonce : Bytes}
    {aad pt : List Iovec} {ob : Bytes} {r : Result} (ha : IntLens aad) (hp : IntLens pt)
    (hwa : AllWF aad) (hwp : AllWF pt) (hn : nonce.length = 12)
    (hr : (flat pt).length + 16 ≤ ob.length)
    (h : c.encrypt L f nonce aad pt (.buf ob) = .ok r) :
    r.status = .ok ∨ r.status = .internal := by
  have hk16 : kTagSize = 16 := rfl
  have hk12 : kNonceSize = 12 := rfl
  unfold Crypter.encrypt at h
  split at h
  · unfold boringEncrypt at h
    simp only at h
    rw [if_neg (by omega), if_neg (by rw [hasBadNull_false.2 hwp]; simp),
      if_neg (by rw [hwp.totalLen_eq]; omega), if_neg (by rw [hasBadNull_false.2 hwa]; simp)] at h
    split at h
    · cases h; exact Or.inr rfl
    · simp only [exec_bind_eq_ok] at h
      obtain ⟨_, _, _, _, _, _, h⟩ := h
      cases h
      exact Or.inl rfl
  · unfold evpEncrypt at h
    simp only at h
    rw [if_neg (by omega)] at h
    split at h
    · cases h; exact Or.inr rfl
    · simp only [exec_bind_eq_ok] at h
      obtain ⟨x, hx, h⟩ := h
      cases x with
      | error e =>
        obtain rfl := setAad_internal hwa hx
        cases h; exact Or.inr rfl
      | ok cx =>
        simp only [exec_bind_eq_ok] at h
        obtain ⟨⟨ob', y⟩, hy, h⟩ := h
        cases y with
        | error e =>
          obtain rfl := encLoop_internal hwp (by omega) hy
          cases h; exact Or.inr rfl
        | ok s =>
          obtain ⟨c', off, rem⟩ := s
          obtain ⟨ob1, r1, k1, k2, k3, _⟩ := encLoop_spec L f pt 0 cx [] ob hp
          simp only [List.nil_append, List.length_nil] at k1
          rw [hy] at k1
          cases k1
          obtain ⟨_, _, _, k4⟩ := k3 _ rfl
          simp only [Prod.mk.injEq] at k4
          have hrem : rem = ob.length - (flat pt).length := by
            rw [k4.2.2, xorKs_eq_mapIdx, List.length_mapIdx]
          simp only at h
          split at h
          · cases h; exact Or.inr rfl
          · rw [if_neg (by omega)] at h
            split at h
            · cases h; exact Or.inr rfl
            · simp only [exec_bind_eq_ok] at h
              obtain ⟨_, _, _, _, _, _, h⟩ := h
              cases h
              exact Or.inl rfl

end S2A.Aead

namespace S2A.Record
open HalfConn (exec_bind_eq_ok nonceMask_spec)

/-- A `Protect` with good arguments that fails returns an internal error. -/
theorem protect_internal {L : Lib} {f : EvpFault} {c c' : Conn} {rt : RecordType}
    {pt : List Iovec} {rb : Bytes} {r : Result} {t : UInt8} (hn : c.outC.nonce.length = 12)
    (hw : AllWF pt) (h1 : totalLen pt ≤ 16384) (h2 : totalLen pt + 22 ≤ rb.length)
    (ht : Spec.contentType rt = some t) (h : protect L f c rt pt (.buf rb) = .ok (c', r)) :
    r.code = .ok ∨ r.code = .internalError := by
  unfold protect at h
  have hmax : kMaxPlaintext = 16384 := rfl
  have hk5 : kHeaderLength = 5 := rfl
  simp only at h
  rw [if_neg (by omega), if_neg (by rw [recordOverhead_eq]; simp only [Iovec.len]; omega)] at h
  have htl : totalLen pt + 1 + c.outC.tagLength = totalLen pt + 17 := rfl
  rw [htl, headerBytes_eq, writeAt_zero _ _ (by simp; omega), exec_bind_ok, convertRecordType_eq,
    ht] at h
  simp only [exec_bind_eq_ok] at h
  obtain ⟨rest, hrest, ⟨outC, call, r1⟩, henc, h⟩ := h
  have hrl : ∃ b, rest = .buf b ∧ b.length = rb.length - 5 := by
    simp only [Iovec.slice] at hrest
    split at hrest
    · cases hrest
      refine ⟨_, rfl, ?_⟩
      simp [hk5]
    · cases hrest
  obtain ⟨b, rfl, hb⟩ := hrl
  have hst : r1.status = .ok ∨ r1.status = .internal := by
    unfold HalfConn.encrypt at henc
    split at henc
    · cases henc; exact Or.inr rfl
    · rw [nonceMask_spec _ hn] at henc
      simp only [exec_bind_ok, exec_bind_eq_ok] at henc
      obtain ⟨r2, e1, e2⟩ := henc
      have hwa : AllWF [Iovec.buf (Spec.recordHeader (totalLen pt + 17))] :=
        AllWF.cons trivial allWF_nil
      have hwt : AllWF [Iovec.buf [t]] := AllWF.cons trivial allWF_nil
      have := Aead.encrypt_internal (totalLen_intLens (by simp [Iovec.len]))
        (totalLen_intLens (by simp [Iovec.len]; omega)) hwa (hw.append hwt)
        (by simp [Spec.recordNonce, hn])
        (by have := hw.totalLen_eq; simp [flat_append, flat_cons, Iovec.bytes]; omega) e1
      cases e2
      exact this
  simp only at h
  rcases hst with hst | hst
  · rw [if_neg (by simp [hst])] at h
    cases h; exact Or.inl rfl
  · rw [if_pos (by simp [hst])] at h
    cases h; exact Or.inr (by rw [hst]; rfl)

end S2A.Record
