import Verif.Lemmas.AeadStatus
import Verif.Lemmas.AeadFault
import Verif.Spec.CryptoStatus
/-
Why the loops of the AEAD crypters stop.
-/
namespace S2A.Aead
open HalfConn (exec_bind_eq_ok)

theorem not_allWF_of_tail {v : Iovec} {vs : List Iovec} (h : ¬ AllWF vs) : ¬ AllWF (v :: vs) :=
  fun hw => h hw.tail

theorem wf_of_len {v : Iovec} (h : v.len = 0) : v.WF := by
  cases v with
  | null n => simpa [Iovec.len, Iovec.WF] using h
  | buf d => trivial

theorem not_allWF_null {n : Nat} {vs : List Iovec} (h : ¬ (Iovec.null n).len = 0) :
    ¬ AllWF (.null n :: vs) :=
  fun hw => h (by simpa [Iovec.WF, Iovec.len] using hw.head)

/-! ### Associated data -/

theorem setAad_error {f : EvpFault} {vs : List Iovec} {k : Nat} {c : Ctx} {e : StatusCode}
    (h : setAad f k c vs = .ok (.error e)) :
    e = .invalidArgument ∧ ¬ AllWF vs ∨
    e = .internal ∧ ∃ j v, vs[j]? = some v ∧ v.len ≠ 0 ∧ f.aad (k + j) = true := by
  induction vs generalizing k c with
  | nil => simp [setAad] at h
  | cons v vs ih =>
    have up : ∀ {c}, setAad f (k + 1) c vs = .ok (.error e) →
        e = .invalidArgument ∧ ¬ AllWF (v :: vs) ∨
        e = .internal ∧ ∃ j w, (v :: vs)[j]? = some w ∧ w.len ≠ 0 ∧ f.aad (k + j) = true := by
      intro c h
      rcases ih h with ⟨e1, e2⟩ | ⟨e1, j, w, e2, e3, e4⟩
      · exact Or.inl ⟨e1, not_allWF_of_tail e2⟩
      · exact Or.inr ⟨e1, j + 1, w, by simpa using e2, e3, by rw [← e4]; congr 1; omega⟩
    unfold setAad at h
    split at h
    · exact up h
    · next hl =>
      cases v with
      | null n => cases h; exact Or.inl ⟨rfl, not_allWF_null hl⟩
      | buf d =>
        simp only at h
        split at h
        · cases h
        · split at h
          · next hf => cases h; exact Or.inr ⟨rfl, 0, _, rfl, hl, hf⟩
          · exact up h

theorem setAad_fine {f : EvpFault} {vs : List Iovec} {k : Nat} {c c' : Ctx}
    (h : setAad f k c vs = .ok (.ok c')) :
    AllWF vs ∧ ∀ j v, vs[j]? = some v → v.len ≠ 0 → f.aad (k + j) = false := by
  induction vs generalizing k c with
  | nil => exact ⟨allWF_nil, fun j v hj => by simp at hj⟩
  | cons v vs ih =>
    have up : ∀ {c}, v.WF → (v.len ≠ 0 → f.aad k = false) → setAad f (k + 1) c vs = .ok (.ok c') →
        AllWF (v :: vs) ∧ ∀ j w, (v :: vs)[j]? = some w → w.len ≠ 0 → f.aad (k + j) = false := by
      intro c hv h0 h
      obtain ⟨e1, e2⟩ := ih h
      refine ⟨AllWF.cons hv e1, fun j w hj hl => ?_⟩
      cases j with
      | zero => simp only [List.getElem?_cons_zero, Option.some.injEq] at hj; subst hj; exact h0 hl
      | succ j =>
        rw [show k + (j + 1) = k + 1 + j by omega]
        exact e2 j w (by simpa using hj) hl
    unfold setAad at h
    split at h
    · next hl => exact up (wf_of_len hl) (fun h => absurd hl h) h
    · next hl =>
      cases v with
      | null n => cases h
      | buf d =>
        simp only at h
        split at h
        · cases h
        · split at h
          · cases h
          · next hf => exact up trivial (fun _ => by simpa using hf) h

/-! ### Encryption -/

theorem encLoop_error {L : Lib} {f : EvpFault} {vs : List Iovec} {k : Nat} {c : Ctx}
    {out ob : Bytes} {off rem : Nat} {e : StatusCode}
    (h : encLoop L f k c out off rem vs = .ok (ob, .error e)) :
    e = .invalidArgument ∧ (¬ AllWF vs ∨ rem < (flat vs).length) ∨
    e = .internal ∧ ∃ j v, vs[j]? = some v ∧ v.len ≠ 0 ∧ f.update (k + j) = true := by
  induction vs generalizing k c out off rem with
  | nil => simp [encLoop] at h
  | cons v vs ih =>
    have up : ∀ {c out off rem'}, rem ≤ rem' + v.bytes.length →
        encLoop L f (k + 1) c out off rem' vs = .ok (ob, .error e) →
        e = .invalidArgument ∧ (¬ AllWF (v :: vs) ∨ rem < (flat (v :: vs)).length) ∨
        e = .internal ∧ ∃ j w, (v :: vs)[j]? = some w ∧ w.len ≠ 0 ∧ f.update (k + j) = true := by
      intro c out off rem' hr h
      rcases ih h with ⟨e1, e2⟩ | ⟨e1, j, w, e2, e3, e4⟩
      · refine Or.inl ⟨e1, e2.imp not_allWF_of_tail fun h => ?_⟩
        simp only [flat_cons, List.length_append]
        omega
      · exact Or.inr ⟨e1, j + 1, w, by simpa using e2, e3, by rw [← e4]; congr 1; omega⟩
    unfold encLoop at h
    split at h
    · exact up (by omega) h
    · next hl =>
      cases v with
      | null n => cases h; exact Or.inl ⟨rfl, Or.inl (not_allWF_null hl)⟩
      | buf d =>
        simp only at h
        split at h
        · next hr =>
          cases h
          refine Or.inl ⟨rfl, Or.inr ?_⟩
          simp only [flat_cons, Iovec.bytes, List.length_append]
          omega
        · split at h
          · cases h
          · split at h
            · next hf => cases h; exact Or.inr ⟨rfl, 0, _, rfl, hl, hf⟩
            · simp only [exec_bind_eq_ok] at h
              obtain ⟨o', _, r', hs, h⟩ := h
              refine up ?_ h
              unfold subSize at hs
              split at hs
              · cases hs
                simp only [Ctx.encUpdate, xorKs_length, Iovec.bytes]
                omega
              · cases hs

theorem encLoop_fine {L : Lib} {f : EvpFault} {vs : List Iovec} {k : Nat} {c : Ctx}
    {out ob : Bytes} {off rem : Nat} {s : Ctx × Nat × Nat}
    (h : encLoop L f k c out off rem vs = .ok (ob, .ok s)) :
    ∀ j v, vs[j]? = some v → v.len ≠ 0 → f.update (k + j) = false := by
  induction vs generalizing k c out off rem with
  | nil => exact fun j v hj => by simp at hj
  | cons v vs ih =>
    have up : ∀ {c out off rem'}, (v.len ≠ 0 → f.update k = false) →
        encLoop L f (k + 1) c out off rem' vs = .ok (ob, .ok s) →
        ∀ j w, (v :: vs)[j]? = some w → w.len ≠ 0 → f.update (k + j) = false := by
      intro c out off rem' h0 h j w hj hl
      cases j with
      | zero => simp only [List.getElem?_cons_zero, Option.some.injEq] at hj; subst hj; exact h0 hl
      | succ j =>
        rw [show k + (j + 1) = k + 1 + j by omega]
        exact ih h j w (by simpa using hj) hl
    unfold encLoop at h
    split at h
    · next hl => exact up (fun h => absurd hl h) h
    · next hl =>
      cases v with
      | null n => cases h
      | buf d =>
        simp only at h
        split at h
        · cases h
        · split at h
          · cases h
          · split at h
            · cases h
            · next hf =>
              simp only [exec_bind_eq_ok] at h
              obtain ⟨o', _, r', hs, h⟩ := h
              exact up (fun _ => by simpa using hf) h

/-! ### Decryption -/

theorem decLoop_error {L : Lib} {f : EvpFault} {vs : List Iovec} {k : Nat} {c : Ctx}
    {out ob : Bytes} {off rem total : Nat} {cur : Bytes} {e : StatusCode}
    (h : decLoop L f k c out off rem total cur vs = .ok (ob, .error e)) :
    e = .invalidArgument ∧ (¬ AllWF vs ∨ rem < total - 16) ∨
    e = .internal ∧ ∃ j v, vs[j]? = some v ∧ v.len ≠ 0 ∧ totalLen (vs.take j) + 16 < total ∧
      f.update (k + j) = true := by
  have hk16 : kTagSize = 16 := rfl
  induction vs generalizing k c out off rem total cur with
  | nil => simp [decLoop] at h
  | cons v vs ih =>
    have up : ∀ {c out off rem' total' cur}, rem + total' ≤ rem' + total → total' ≤ total →
        (16 < total' → total' + v.len ≤ total) →
        decLoop L f (k + 1) c out off rem' total' cur vs = .ok (ob, .error e) →
        e = .invalidArgument ∧ (¬ AllWF (v :: vs) ∨ rem < total - 16) ∨
        e = .internal ∧ ∃ j w, (v :: vs)[j]? = some w ∧ w.len ≠ 0 ∧
          totalLen ((v :: vs).take j) + 16 < total ∧ f.update (k + j) = true := by
      intro c out off rem' total' cur hr ht hl h
      rcases ih h with ⟨e1, e2⟩ | ⟨e1, j, w, e2, e3, e4, e5⟩
      · exact Or.inl ⟨e1, e2.imp not_allWF_of_tail fun h => by omega⟩
      · refine Or.inr ⟨e1, j + 1, w, by simpa using e2, e3, ?_, by rw [← e5]; congr 1; omega⟩
        simp only [List.take_succ_cons, totalLen_cons]
        have := hl (by omega)
        omega
    unfold decLoop at h
    split at h
    · cases h
    · next htot =>
      split at h
      · next hl => exact up (by omega) (by omega) (by omega) h
      · next hl =>
        cases v with
        | null n => cases h; exact Or.inl ⟨rfl, Or.inl (not_allWF_null hl)⟩
        | buf d =>
          simp only at h
          generalize hb : (if d.length > total - kTagSize then total - kTagSize else d.length) = btw at h
          have hb1 : btw ≤ total - 16 := by rw [← hb]; split <;> omega
          have hb2 : btw ≤ d.length := by rw [← hb]; split <;> omega
          have hb3 : btw < total - 16 → btw = d.length := by rw [← hb]; split <;> omega
          split at h
          · next hr =>
            cases h
            exact Or.inl ⟨rfl, Or.inr (by omega)⟩
          · split at h
            · cases h
            · split at h
              · next hf =>
                cases h
                exact Or.inr ⟨rfl, 0, _, rfl, hl, by simp; omega, hf⟩
              · simp only [exec_bind_eq_ok] at h
                obtain ⟨o', _, r', hs, t', hs', h⟩ := h
                have hol : (Ctx.decUpdate L c (d.take btw)).1.length = btw := by
                  simp only [Ctx.decUpdate, xorKs_length, List.length_take]; omega
                rw [hol] at hs hs'
                unfold subSize at hs hs'
                split at hs
                · split at hs'
                  · cases hs
                    cases hs'
                    refine up (by omega) (by omega) (fun h => ?_) h
                    have := hb3 (by omega)
                    simp only [Iovec.len]
                    omega
                  · cases hs'
                · cases hs

theorem decLoop_fine {L : Lib} {f : EvpFault} {vs : List Iovec} {k : Nat} {c : Ctx}
    {out ob : Bytes} {off rem total : Nat} {cur : Bytes} {s : DecState}
    (h : decLoop L f k c out off rem total cur vs = .ok (ob, .ok s)) :
    (AllWF s.rest → AllWF vs) ∧ (s.rest = [] ∨ s.total ≤ 16) ∧
    ∀ j v, vs[j]? = some v → v.len ≠ 0 → totalLen (vs.take j) + 16 < total →
      f.update (k + j) = false := by
  have hk16 : kTagSize = 16 := rfl
  induction vs generalizing k c out off rem total cur with
  | nil => cases h; exact ⟨fun _ => allWF_nil, Or.inl rfl, fun j v hj => by simp at hj⟩
  | cons v vs ih =>
    have up : ∀ {c out off rem' total' cur}, v.WF → (v.len ≠ 0 → f.update k = false) →
        (v.len + 16 < total → total ≤ total' + v.len) →
        decLoop L f (k + 1) c out off rem' total' cur vs = .ok (ob, .ok s) →
        (AllWF s.rest → AllWF (v :: vs)) ∧ (s.rest = [] ∨ s.total ≤ 16) ∧
        ∀ j w, (v :: vs)[j]? = some w → w.len ≠ 0 → totalLen ((v :: vs).take j) + 16 < total →
          f.update (k + j) = false := by
      intro c out off rem' total' cur hv h0 ht h
      obtain ⟨e1, e3, e2⟩ := ih h
      refine ⟨fun hr => AllWF.cons hv (e1 hr), e3, fun j w hj hl htot => ?_⟩
      cases j with
      | zero => simp only [List.getElem?_cons_zero, Option.some.injEq] at hj; subst hj; exact h0 hl
      | succ j =>
        simp only [List.take_succ_cons, totalLen_cons] at htot
        have := ht (by omega)
        rw [show k + (j + 1) = k + 1 + j by omega]
        exact e2 j w (by simpa using hj) hl (by omega)
    unfold decLoop at h
    split at h
    · next htot => cases h; exact ⟨id, Or.inr (by simpa using htot), fun j v hj hl ht => by omega⟩
    · next htot =>
      split at h
      · next hl => exact up (wf_of_len hl) (fun h => absurd hl h) (by omega) h
      · next hl =>
        cases v with
        | null n => cases h
        | buf d =>
          simp only at h
          generalize hb : (if d.length > total - kTagSize then total - kTagSize else d.length) = btw at h
          have hb2 : btw ≤ d.length := by rw [← hb]; split <;> omega
          split at h
          · cases h
          · split at h
            · cases h
            · split at h
              · cases h
              · next hf =>
                simp only [exec_bind_eq_ok] at h
                obtain ⟨o', _, r', hs, t', hs', h⟩ := h
                have hol : (Ctx.decUpdate L c (d.take btw)).1.length = btw := by
                  simp only [Ctx.decUpdate, xorKs_length, List.length_take]; omega
                rw [hol] at hs hs'
                unfold subSize at hs'
                split at hs'
                · cases hs'
                  refine up trivial (fun _ => by simpa using hf) (fun h => ?_) h
                  simp only [Iovec.len]
                  omega
                · cases hs'

theorem gatherTag_wf {tag t : Bytes} {vs : List Iovec} (h : gatherTag tag vs = .ok t) :
    AllWF vs := by
  induction vs generalizing tag with
  | nil => exact allWF_nil
  | cons v vs ih =>
    unfold gatherTag at h
    simp only [exec_bind_eq_ok] at h
    obtain ⟨w, hw, t', _, h⟩ := h
    refine AllWF.cons ?_ (ih h)
    cases v with
    | buf d => trivial
    | null n =>
      unfold Iovec.read at hw
      by_cases hn : (Iovec.null n).len = 0
      · exact hn
      · simp only [] at hw; rw [if_neg hn] at hw; cases hw

end S2A.Aead
