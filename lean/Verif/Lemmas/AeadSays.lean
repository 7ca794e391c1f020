import Verif.Lemmas.CryptoStatus
import Verif.Lemmas.TextCrypto
import Verif.Spec.AeadSays
/-
Why the loops of the AEAD crypters stop, with the messages.
-/
namespace S2A.Aead
open HalfConn (exec_bind_eq_ok)

theorem setAadT_error {f : EvpFault} {q : String} {vs : List Iovec} {k : Nat} {c : Ctx}
    {e : StatusCode} {m : String} (h : setAadT f q k c vs = .ok (.error (e, m))) :
    e = .invalidArgument ∧ m = aadNullText c.alg ∧ ¬ AllWF vs ∨
    e = .internal ∧ m = "Setting authenticated associated data failed. " ++ q ∧
      ∃ j v, vs[j]? = some v ∧ v.len ≠ 0 ∧ f.aad (k + j) = true := by
  induction vs generalizing k c with
  | nil => simp [setAadT] at h
  | cons v vs ih =>
    have up : ∀ {c'}, c'.alg = c.alg → setAadT f q (k + 1) c' vs = .ok (.error (e, m)) →
        e = .invalidArgument ∧ m = aadNullText c.alg ∧ ¬ AllWF (v :: vs) ∨
        e = .internal ∧ m = "Setting authenticated associated data failed. " ++ q ∧
          ∃ j w, (v :: vs)[j]? = some w ∧ w.len ≠ 0 ∧ f.aad (k + j) = true := by
      intro c' hc h
      rcases ih h with ⟨e1, e2, e3⟩ | ⟨e1, e2, j, w, e3, e4, e5⟩
      · exact Or.inl ⟨e1, by rw [e2, hc], not_allWF_of_tail e3⟩
      · exact Or.inr ⟨e1, e2, j + 1, w, by simpa using e3, e4, by rw [← e5]; congr 1; omega⟩
    unfold setAadT at h
    split at h
    · exact up rfl h
    · next hl =>
      cases v with
      | null n => cases h; exact Or.inl ⟨rfl, rfl, not_allWF_null hl⟩
      | buf d =>
        simp only at h
        split at h
        · cases h
        · split at h
          · next hf => cases h; exact Or.inr ⟨rfl, rfl, 0, _, rfl, hl, hf⟩
          · exact up (c' := { c with aad := c.aad ++ d }) rfl h

theorem setAadT_fine {f : EvpFault} {q : String} {vs : List Iovec} {k : Nat} {c c' : Ctx}
    (h : setAadT f q k c vs = .ok (.ok c')) :
    c'.alg = c.alg ∧ setAad f k c vs = .ok (.ok c') := by
  refine ⟨?_, by rw [← setAadT_quiet f q, h]; rfl⟩
  induction vs generalizing k c with
  | nil => cases h; rfl
  | cons v vs ih =>
    unfold setAadT at h
    split at h
    · exact ih h
    · cases v with
      | null n => cases h
      | buf d =>
        simp only at h
        split at h
        · cases h
        · split at h
          · cases h
          · exact ih (c := { c with aad := c.aad ++ d }) h

theorem encLoopT_error {L : Lib} {f : EvpFault} {q : String} {vs : List Iovec} {k : Nat} {c : Ctx}
    {out ob : Bytes} {off rem : Nat} {e : StatusCode} {m : String}
    (h : encLoopT L f q k c out off rem vs = .ok (ob, .error (e, m))) :
    e = .invalidArgument ∧ m = plaintextNullText c.alg ∧ ¬ AllWF vs ∨
    e = .invalidArgument ∧ m = "|ciphertext_and_tag| is not large enough to hold " ++
      "the result of encrypting |plaintext|. " ++ q ∧ rem < (flat vs).length ∨
    e = .internal ∧ m = "Encrypting |plaintext| failed. " ++ q ∧
      ∃ j v, vs[j]? = some v ∧ v.len ≠ 0 ∧ f.update (k + j) = true := by
  induction vs generalizing k c out off rem with
  | nil => simp [encLoopT] at h
  | cons v vs ih =>
    have up : ∀ {c' out off rem'}, c'.alg = c.alg → rem ≤ rem' + v.bytes.length →
        encLoopT L f q (k + 1) c' out off rem' vs = .ok (ob, .error (e, m)) →
        e = .invalidArgument ∧ m = plaintextNullText c.alg ∧ ¬ AllWF (v :: vs) ∨
        e = .invalidArgument ∧ m = "|ciphertext_and_tag| is not large enough to hold " ++
          "the result of encrypting |plaintext|. " ++ q ∧ rem < (flat (v :: vs)).length ∨
        e = .internal ∧ m = "Encrypting |plaintext| failed. " ++ q ∧
          ∃ j w, (v :: vs)[j]? = some w ∧ w.len ≠ 0 ∧ f.update (k + j) = true := by
      intro c' out off rem' hc hr h
      rcases ih h with ⟨e1, e2, e3⟩ | ⟨e1, e2, e3⟩ | ⟨e1, e2, j, w, e3, e4, e5⟩
      · exact Or.inl ⟨e1, by rw [e2, hc], not_allWF_of_tail e3⟩
      · refine Or.inr (Or.inl ⟨e1, e2, ?_⟩)
        simp only [flat_cons, List.length_append]
        omega
      · exact Or.inr (Or.inr ⟨e1, e2, j + 1, w, by simpa using e3, e4, by rw [← e5]; congr 1; omega⟩)
    unfold encLoopT at h
    split at h
    · exact up rfl (by omega) h
    · next hl =>
      cases v with
      | null n => cases h; exact Or.inl ⟨rfl, rfl, not_allWF_null hl⟩
      | buf d =>
        simp only at h
        split at h
        · next hr =>
          cases h
          refine Or.inr (Or.inl ⟨rfl, rfl, ?_⟩)
          simp only [flat_cons, Iovec.bytes, List.length_append]
          omega
        · split at h
          · cases h
          · split at h
            · next hf => cases h; exact Or.inr (Or.inr ⟨rfl, rfl, 0, _, rfl, hl, hf⟩)
            · simp only [exec_bind_eq_ok] at h
              obtain ⟨o', _, r', hs, h⟩ := h
              refine up (c' := (c.encUpdate L d).2) rfl ?_ h
              unfold subSize at hs
              split at hs
              · cases hs
                simp only [Ctx.encUpdate, xorKs_length, Iovec.bytes]
                omega
              · cases hs

/-- If the loop ends, all buffers were there and `rem` has become less by their bytes. -/
theorem encLoopT_fine {L : Lib} {f : EvpFault} {q : String} {vs : List Iovec} {k : Nat} {c c' : Ctx}
    {out ob : Bytes} {off off' rem rem' : Nat}
    (h : encLoopT L f q k c out off rem vs = .ok (ob, .ok (c', off', rem'))) :
    AllWF vs ∧ rem' + (flat vs).length = rem := by
  induction vs generalizing k c out off rem with
  | nil => cases h; exact ⟨allWF_nil, rfl⟩
  | cons v vs ih =>
    unfold encLoopT at h
    split at h
    · next hl =>
      obtain ⟨h1, h2⟩ := ih h
      refine ⟨AllWF.cons (wf_of_len hl) h1, ?_⟩
      have := (wf_of_len hl).len_eq
      simp only [flat_cons, List.length_append]
      omega
    · next hl =>
      cases v with
      | null n => cases h
      | buf d =>
        simp only at h
        split at h
        · cases h
        · split at h
          · cases h
          · split at h
            · cases h
            · simp only [exec_bind_eq_ok] at h
              obtain ⟨o', _, r', hs, h⟩ := h
              obtain ⟨h1, h2⟩ := ih h
              refine ⟨AllWF.cons trivial h1, ?_⟩
              unfold subSize at hs
              split at hs
              · next hle =>
                cases hs
                simp only [Ctx.encUpdate, xorKs_length] at h2 hle
                simp only [flat_cons, Iovec.bytes, List.length_append]
                omega
              · cases hs

theorem decLoopT_error {L : Lib} {f : EvpFault} {q : String} {vs : List Iovec} {k : Nat} {c : Ctx}
    {out ob : Bytes} {off rem total : Nat} {cur : Bytes} {e : StatusCode} {m : String}
    (h : decLoopT L f q k c out off rem total cur vs = .ok (ob, .error (e, m))) :
    e = .invalidArgument ∧ m = "|ciphertext_and_tag| has an invalid component." ∧ ¬ AllWF vs ∨
    e = .invalidArgument ∧ m = "|plaintext| is too small to hold the decrypted ciphertext." ∧
      rem + 16 < total ∨
    e = .internal ∧ m = "Decrypting ciphertext failed. " ++ q ∧
      ∃ j v, vs[j]? = some v ∧ v.len ≠ 0 ∧ totalLen (vs.take j) + 16 < total ∧
        f.update (k + j) = true := by
  have hk16 : kTagSize = 16 := rfl
  induction vs generalizing k c out off rem total cur with
  | nil => simp [decLoopT] at h
  | cons v vs ih =>
    have up : ∀ {c out off rem' total' cur}, rem + total' ≤ rem' + total → total' ≤ total →
        (16 < total' → total' + v.len ≤ total) →
        decLoopT L f q (k + 1) c out off rem' total' cur vs = .ok (ob, .error (e, m)) →
        e = .invalidArgument ∧ m = "|ciphertext_and_tag| has an invalid component." ∧
          ¬ AllWF (v :: vs) ∨
        e = .invalidArgument ∧ m = "|plaintext| is too small to hold the decrypted ciphertext." ∧
          rem + 16 < total ∨
        e = .internal ∧ m = "Decrypting ciphertext failed. " ++ q ∧
          ∃ j w, (v :: vs)[j]? = some w ∧ w.len ≠ 0 ∧
            totalLen ((v :: vs).take j) + 16 < total ∧ f.update (k + j) = true := by
      intro c out off rem' total' cur hr ht hl h
      rcases ih h with ⟨e1, e2, e3⟩ | ⟨e1, e2, e3⟩ | ⟨e1, e2, j, w, e3, e4, e5, e6⟩
      · exact Or.inl ⟨e1, e2, not_allWF_of_tail e3⟩
      · exact Or.inr (Or.inl ⟨e1, e2, by omega⟩)
      · refine Or.inr (Or.inr ⟨e1, e2, j + 1, w, by simpa using e3, e4, ?_,
          by rw [← e6]; congr 1; omega⟩)
        simp only [List.take_succ_cons, totalLen_cons]
        have := hl (by omega)
        omega
    unfold decLoopT at h
    split at h
    · cases h
    · next htot =>
      split at h
      · next hl => exact up (by omega) (by omega) (by omega) h
      · next hl =>
        cases v with
        | null n => cases h; exact Or.inl ⟨rfl, rfl, not_allWF_null hl⟩
        | buf d =>
          simp only at h
          generalize hb : (if d.length > total - kTagSize then total - kTagSize else d.length) = btw at h
          have hb1 : btw ≤ total - 16 := by rw [← hb]; split <;> omega
          have hb2 : btw ≤ d.length := by rw [← hb]; split <;> omega
          have hb3 : btw < total - 16 → btw = d.length := by rw [← hb]; split <;> omega
          split at h
          · next hr =>
            cases h
            exact Or.inr (Or.inl ⟨rfl, rfl, by omega⟩)
          · split at h
            · cases h
            · split at h
              · next hf =>
                cases h
                exact Or.inr (Or.inr ⟨rfl, rfl, 0, _, rfl, hl, by simp; omega, hf⟩)
              · simp only [exec_bind_eq_ok] at h
                obtain ⟨o', _, r', hs, t', hs', h⟩ := h
                have hol : (Ctx.decUpdate L c (d.take btw)).1.length = btw := by
                  simp only [Ctx.decUpdate, xorKs_length, List.length_take]; omega
                rw [hol] at hs hs'
                unfold subSize at hs hs'
                split at hs
                · split at hs'
                  · cases hs
                    cases hs'
                    refine up (by omega) (by omega) (fun h => ?_) h
                    have := hb3 (by omega)
                    simp only [Iovec.len]
                    omega
                  · cases hs'
                · cases hs

/-- If the loop ends, nothing but the tag is left. -/
theorem decLoop_total {L : Lib} {f : EvpFault} {vs : List Iovec} {k : Nat} {c : Ctx}
    {out ob : Bytes} {off rem total : Nat} {cur : Bytes} {s : DecState}
    (h : decLoop L f k c out off rem total cur vs = .ok (ob, .ok s))
    (ht : total ≤ totalLen vs ∨ total ≤ 16) : s.total ≤ 16 := by
  have hk16 : kTagSize = 16 := rfl
  induction vs generalizing k c out off rem total cur with
  | nil => cases h; simp at ht; simp only; omega
  | cons v vs ih =>
    simp only [totalLen_cons] at ht
    unfold decLoop at h
    split at h
    · cases h; simp only; omega
    · split at h
      · next hl => exact ih h (by omega)
      · cases v with
        | null n => cases h
        | buf d =>
          simp only [Iovec.len] at h ht
          generalize hb : (if d.length > total - kTagSize then total - kTagSize else d.length) = btw at h
          have hb1 : btw ≤ total - 16 := by rw [← hb]; split <;> omega
          have hb2 : btw ≤ d.length := by rw [← hb]; split <;> omega
          have hb3 : btw < total - 16 → btw = d.length := by rw [← hb]; split <;> omega
          split at h
          · cases h
          · split at h
            · cases h
            · split at h
              · cases h
              · simp only [exec_bind_eq_ok] at h
                obtain ⟨o', _, r', hs, t', hs', h⟩ := h
                have hol : (Ctx.decUpdate L c (d.take btw)).1.length = btw := by
                  simp only [Ctx.decUpdate, xorKs_length, List.length_take]; omega
                rw [hol] at hs'
                unfold subSize at hs'
                split at hs'
                · cases hs'
                  exact ih h (by omega)
                · cases hs'

end S2A.Aead

namespace S2A.Hkdf
open HalfConn (exec_bind_eq_ok)

theorem loopT_message {L : Lib} {h : HashFn} {f : HkdfFault} {late : Bool} {prk info : Bytes} {n i : Nat}
    {buffer out out' : Bytes} {done : Nat} {st : StatusCode} {m : String}
    (hr : loopT L h f late prk info n i buffer done out = .ok ((st, out'), m)) :
    st = .ok ∧ m = "" ∨ ∃ j, j < i + n ∧ f.step j = true ∧ st = .internal ∧
      m = if j = 0 || late then "Updating and finalizing HMAC failed." else "Updating HMAC failed." := by
  induction n generalizing i buffer done out with
  | zero => cases hr; exact Or.inl ⟨rfl, rfl⟩
  | succ n ih =>
    unfold loopT at hr
    split at hr
    · next hf => cases hr; exact Or.inr ⟨i, by omega, hf, rfl, rfl⟩
    · simp only [exec_bind_eq_ok] at hr
      obtain ⟨_, _, _, _, hr⟩ := hr
      rcases ih hr with h | ⟨j, h1, h2⟩
      · exact Or.inl h
      · exact Or.inr ⟨j, by omega, h2⟩

end S2A.Hkdf
