import Verif.Lemmas.Dir
import Verif.Lemmas.Aead
import Verif.Spec.Record
namespace S2A.Record
open HalfConn

theorem headerBytes_eq (n : Nat) : headerBytes n = Spec.recordHeader n := by
  simp [headerBytes, Spec.recordHeader, Nat.shiftRight_eq_div_pow]

@[simp] theorem recordHeader_length (n : Nat) : (Spec.recordHeader n).length = 5 := rfl

theorem recordOverhead_eq (c : Conn) : c.recordOverhead = 22 := rfl

theorem convertRecordType_eq (rt : RecordType) :
    convertRecordType rt = match Spec.contentType rt with
      | some t => .ok t
      | none => .error .failedPrecondition := by
  cases rt <;> rfl

theorem convertStatus_ne {st : StatusCode} (h : st ≠ .ok) : convertStatus st ≠ .ok := by
  cases st <;> first | exact absurd rfl h | (simp [convertStatus])

theorem totalLen_intLens {vs : List Iovec} (h : totalLen vs ≤ 20000) : Aead.IntLens vs := by
  intro v hv
  have := Iovec.len_mem_le hv
  unfold Aead.intBound
  omega

/-- What a `Protect` call does. -/
def ProtectSpec (L : Lib) (f : EvpFault) (c : Conn) (rt : RecordType) (pt : List Iovec)
    (rb : Bytes) (c' : Conn) (r : Result) : Prop :=
  ((totalLen pt > 16384 ∨ rb.length < totalLen pt + 22) ∧ c' = c ∧
    r = ⟨.failedPrecondition, 0, .buf rb, none, none, none⟩) ∨
  (totalLen pt ≤ 16384 ∧ totalLen pt + 22 ≤ rb.length ∧
    ((Spec.contentType rt = none ∧ c' = c ∧
      r = ⟨.failedPrecondition, 0,
        .buf (Spec.recordHeader (totalLen pt + 17) ++ rb.drop 5), none, none, none⟩) ∨
     ∃ t, Spec.contentType rt = some t ∧
      ((blocked c.outC = true ∧ c' = c ∧
        r = ⟨.internalError, 0, .buf (zeros rb.length), none, none, none⟩) ∨
       (blocked c.outC = false ∧ c' = { c with outC := bump c.outC } ∧
        (let key := c.outC.aead.key
         let nonce := Spec.recordNonce c.outC.nonce c.outC.seq.toNat
         r.call = some ⟨key, nonce, Spec.recordHeader (totalLen pt + 17), flat pt ++ [t]⟩ ∧
         r.rekey = none ∧
         ((r.code ≠ .ok ∧ r.written = 0 ∧ r.out = .buf (zeros rb.length) ∧
            ¬ (f = .none ∧ AllWF pt)) ∨
          (r.code = .ok ∧ AllWF pt ∧ r.written = totalLen pt + 22 ∧
            r.out = .buf (Spec.sealRecord L c.outC.aead.alg key nonce
              (Spec.innerPlaintext (flat pt) t 0) ++ rb.drop (totalLen pt + 22)))))))))

theorem protect_spec (L : Lib) (f : EvpFault) (c : Conn) (rt : RecordType) (pt : List Iovec)
    (rb : Bytes) (hn : c.outC.nonce.length = 12) :
    ∃ c' r, protect L f c rt pt (.buf rb) = .ok (c', r) ∧ ProtectSpec L f c rt pt rb c' r := by
  unfold protect ProtectSpec
  simp only []
  have hmax : kMaxPlaintext = 16384 := rfl
  by_cases h1 : totalLen pt > kMaxPlaintext
  · rw [if_pos h1]
    exact ⟨_, _, rfl, Or.inl ⟨Or.inl h1, rfl, rfl⟩⟩
  rw [if_neg h1]
  by_cases h2 : (Iovec.buf rb).len < totalLen pt + c.recordOverhead
  · rw [if_pos h2]
    exact ⟨_, _, rfl, Or.inl ⟨Or.inr h2, rfl, rfl⟩⟩
  rw [if_neg h2]
  simp only [recordOverhead_eq, Iovec.len] at h2
  have htl : totalLen pt + 1 + c.outC.tagLength = totalLen pt + 17 := rfl
  rw [htl, headerBytes_eq, writeAt_zero _ _ (by simp; omega), exec_bind_ok, convertRecordType_eq]
  cases ht : Spec.contentType rt with
  | none =>
    simp only [exec_pure]
    exact ⟨_, _, rfl, Or.inr ⟨by omega, by omega, Or.inl ⟨trivial, rfl, rfl⟩⟩⟩
  | some t =>
    simp only [recordHeader_length]
    have hlen : (Spec.recordHeader (totalLen pt + 17) ++ rb.drop 5).length = rb.length := by
      simp; omega
    have hsl : (Iovec.buf (Spec.recordHeader (totalLen pt + 17) ++ rb.drop 5)).slice kHeaderLength
        ((Spec.recordHeader (totalLen pt + 17) ++ rb.drop 5).length - kHeaderLength) =
        .ok (.buf (rb.drop 5)) := by
      have hk : kHeaderLength = 5 := rfl
      simp only [Iovec.slice]
      rw [if_pos (by rw [hlen]; omega)]
      congr 2
      rw [show kHeaderLength = (Spec.recordHeader (totalLen pt + 17)).length from rfl,
        List.drop_left]
      apply List.take_of_length_le
      simp
    rw [hsl, exec_bind_ok]
    unfold encrypt
    by_cases hb : (c.outC.alwaysFail || c.outC.overflowed) = true
    · rw [if_pos hb, exec_bind_ok]
      simp only [ne_eq, reduceCtorEq, not_false_eq_true, if_true, exec_pure, hlen]
      exact ⟨_, _, rfl, Or.inr ⟨by omega, by omega, Or.inr ⟨t, rfl, Or.inl ⟨hb, rfl, rfl⟩⟩⟩⟩
    · rw [if_neg hb, nonceMask_spec _ hn]
      simp only [exec_bind_ok]
      obtain ⟨st, w, ob', e1, e2, e3, e4, e5⟩ := Aead.Crypter.encrypt_spec L f c.outC.aead
        (Spec.recordNonce c.outC.nonce c.outC.seq.toNat)
        [.buf (Spec.recordHeader (totalLen pt + 17))] (pt ++ [.buf [t]]) (rb.drop 5)
        (totalLen_intLens (by simp [Iovec.len]))
        (totalLen_intLens (by simp [Iovec.len]; omega))
      rw [e1]
      simp only [exec_bind_ok, exec_pure, flat_cons, flat_nil, List.append_nil, flat_append,
        Iovec.bytes] at e4 e5 ⊢
      have hwa : AllWF [Iovec.buf (Spec.recordHeader (totalLen pt + 17))] :=
        AllWF.cons trivial allWF_nil
      have hwt : AllWF [Iovec.buf [t]] := AllWF.cons trivial allWF_nil
      have hnl : (Spec.recordNonce c.outC.nonce c.outC.seq.toNat).length = 12 := by
        simp [Spec.recordNonce, hn]
      by_cases hst : st = .ok
      · subst hst
        simp only [ne_eq, not_true_eq_false, if_false]
        obtain ⟨g1, g2, g3, g4, g5, g6⟩ := e4 rfl
        have hwp : AllWF pt := fun v hv => g3 v (by simp [hv])
        have hfl := hwp.totalLen_eq
        refine ⟨_, _, rfl, Or.inr ⟨by omega, by omega, Or.inr ⟨t, rfl, Or.inr
          ⟨by simpa [blocked] using hb, rfl, rfl, rfl, Or.inr ⟨rfl, hwp, ?_, ?_⟩⟩⟩⟩⟩
        · rw [g5]; simp [kHeaderLength]; omega
        · simp only [g6, Spec.sealRecord, Spec.innerPlaintext, List.replicate_zero,
            kHeaderLength, List.append_assoc]
          rw [List.take_append_of_le_length (by simp), List.take_of_length_le (by simp)]
          simp only [List.length_append, List.length_cons, List.length_nil, List.drop_drop, hfl]
          congr 4
          omega
      · simp only [hst, ne_eq, not_false_eq_true, if_true, hlen]
        refine ⟨_, _, rfl, Or.inr ⟨by omega, by omega, Or.inr ⟨t, rfl, Or.inr
          ⟨by simpa [blocked] using hb, rfl, rfl, rfl, Or.inl
            ⟨convertStatus_ne hst, rfl, rfl, ?_⟩⟩⟩⟩⟩
        rintro ⟨hf, hwp⟩
        have hfl := hwp.totalLen_eq
        exact hst (e5 hf hnl hwa (hwp.append hwt) (by simp; omega))

end S2A.Record
