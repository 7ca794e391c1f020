import Verif.Spec.KeyNonce
/-
A pair of key and nonce that comes twice is a key that comes twice.
-/
namespace S2A.Spec

theorem keyNonces_mem {L : Lib} {s : Suite} {secret : Bytes} {us : List KeyUse} :
    ∀ {e seq : Nat} {k n : Bytes}, Follows L s secret e seq us → (k, n) ∈ keyNonces us →
    ∃ e', e ≤ e' ∧ e' ≤ e + rekeys us ∧ k = keyAfter L s secret e' ∧ (e', n) ∈ epochNonces e us := by
  induction us with
  | nil => intro e seq k n _ h; cases h
  | cons x us ih =>
    intro e seq k n hf h
    cases x with
    | aead key nonce =>
      obtain ⟨h1, _, _, h4⟩ := hf
      simp only [keyNonces, List.mem_cons] at h
      rcases h with h | h
      · cases h
        exact ⟨e, Nat.le_refl _, Nat.le_add_right .., h1, by simp [epochNonces]⟩
      · obtain ⟨e', a, b, c, d⟩ := ih h4 h
        exact ⟨e', a, b, c, by simp [epochNonces, d]⟩
    | rekey =>
      obtain ⟨e', a, b, c, d⟩ := ih (e := e + 1) (seq := 0) hf h
      exact ⟨e', by omega, by simp only [rekeys]; omega, c, d⟩

theorem keyNonces_nodup {L : Lib} {s : Suite} {secret : Bytes} {us : List KeyUse} :
    ∀ {e seq : Nat}, Follows L s secret e seq us → (epochNonces e us).Nodup →
    (∀ m n, e ≤ m → m < n → n ≤ e + rekeys us → keyAfter L s secret m ≠ keyAfter L s secret n) →
    (keyNonces us).Nodup := by
  induction us with
  | nil => intros; exact List.nodup_nil
  | cons x us ih =>
    intro e seq hf hn hk
    cases x with
    | aead key nonce =>
      have hf' := hf
      obtain ⟨h1, _, _, h4⟩ := hf'
      simp only [epochNonces, List.nodup_cons] at hn
      simp only [keyNonces, List.nodup_cons]
      refine ⟨fun hm => ?_, ih h4 hn.2 hk⟩
      obtain ⟨e', a, b, c, d⟩ := keyNonces_mem h4 hm
      by_cases he : e' = e
      · subst he; exact hn.1 d
      · exact hk e e' (Nat.le_refl _) (by omega) b (by rw [← c, h1]; rfl)
    | rekey =>
      simp only [keyNonces]
      exact ih (e := e + 1) (seq := 0) hf hn
        (fun m n a b c => hk m n (by omega) b (by simp only [rekeys]; omega))

end S2A.Spec
