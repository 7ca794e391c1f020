import Verif.Lemmas.NullCopy
namespace S2A.NullCopy
open Aead Spec.NullCopy

/-- Null and empty. -/
def IsNull (v : Iovec) : Prop := ∃ n, v = .null n

theorem clear_cases (o : Iovec) (n : Nat) :
    IsNull o ∧ clear o n = .error .nullDeref ∨ NotNull o ∧ clear o n = .ok (zeros n) := by
  cases o with
  | null k => exact .inl ⟨⟨k, rfl⟩, rfl⟩
  | buf d => exact .inr ⟨⟨d, rfl⟩, rfl⟩

theorem decLoop_cases (L : Lib) (f : EvpFault) (o : Iovec) : ∀ (vs : List Iovec) (k : Nat) (c : Ctx)
    (out : Bytes) (off rem total : Nat) (cur : Bytes),
    decLoop L f o k c out off rem total cur vs = Aead.decLoop L f k c out off rem total cur vs ∨
    decLoop L f o k c out off rem total cur vs = .error .nullDeref ∧ IsNull o ∧
      ∃ ob e, e ≠ .ok ∧ Aead.decLoop L f k c out off rem total cur vs = .ok (ob, .error e)
  | [], _, _, _, _, _, _, _ => .inl rfl
  | v :: vs, k, c, out, off, rem, total, cur => by
    unfold decLoop Aead.decLoop
    split
    · exact .inl rfl
    split
    · exact decLoop_cases L f o vs _ _ _ _ _ _ _
    cases v with
    | null n =>
      rcases clear_cases o out.length with ⟨h1, e1⟩ | ⟨h1, e1⟩
      · exact .inr ⟨by simp only [e1, exec_bind_error], h1, _, _, by decide, rfl⟩
      · exact .inl (by simp only [e1, exec_bind_ok, exec_pure])
    | buf d =>
      simp only []
      generalize (if d.length > total - kTagSize then total - kTagSize else d.length) = btw
      split
      · exact .inl rfl
      split
      · exact .inl rfl
      split
      · rcases clear_cases o out.length with ⟨h1, e1⟩ | ⟨h1, e1⟩
        · exact .inr ⟨by simp only [e1, exec_bind_error], h1, _, _, by decide, rfl⟩
        · exact .inl (by simp only [e1, exec_bind_ok, exec_pure])
      generalize c.decUpdate L (d.take btw) = p
      obtain ⟨p, c'⟩ := p
      simp only []
      cases writeAt out off p with
      | error e => exact .inl rfl
      | ok out' =>
        simp only [exec_bind_ok]
        cases subSize rem p.length with
        | error e => exact .inl rfl
        | ok rem' =>
          simp only [exec_bind_ok]
          cases subSize total p.length with
          | error e => exact .inl rfl
          | ok total' =>
            simp only [exec_bind_ok]
            exact decLoop_cases L f o vs _ _ _ _ _ _ _

theorem decLoop_rest (L : Lib) (f : EvpFault) : ∀ (vs : List Iovec) (k : Nat) (c : Ctx)
    (out : Bytes) (off rem total : Nat) (cur : Bytes) (ob : Bytes) (s : DecState),
    Aead.decLoop L f k c out off rem total cur vs = .ok (ob, .ok s) → ∀ v ∈ s.rest, v ∈ vs
  | [], _, _, _, _, _, _, _, _, _, h => by
    cases h
    simp
  | v :: vs, k, c, out, off, rem, total, cur, ob, s, h => by
    unfold Aead.decLoop at h
    split at h
    · cases h
      simp
    split at h
    · exact fun w hw => List.mem_cons_of_mem _ (decLoop_rest L f vs _ _ _ _ _ _ _ _ _ h w hw)
    cases v with
    | null n => cases h
    | buf d =>
      simp only [] at h
      generalize (if d.length > total - kTagSize then total - kTagSize else d.length) = btw at h
      split at h
      · cases h
      split at h
      · cases h
      split at h
      · cases h
      generalize c.decUpdate L (d.take btw) = p at h
      obtain ⟨p, c'⟩ := p
      simp only [] at h
      cases h1 : writeAt out off p with
      | error e => simp [h1] at h
      | ok out' =>
        simp only [h1, exec_bind_ok] at h
        cases h2 : subSize rem p.length with
        | error e => simp [h2] at h
        | ok rem' =>
          simp only [h2, exec_bind_ok] at h
          cases h3 : subSize total p.length with
          | error e => simp [h3] at h
          | ok total' =>
            simp only [h3, exec_bind_ok] at h
            exact fun w hw => List.mem_cons_of_mem _ (decLoop_rest L f vs _ _ _ _ _ _ _ _ _ h w hw)

theorem gatherTag_cases : ∀ (vs : List Iovec) (tag : Bytes),
    gatherTag tag vs = Aead.gatherTag tag vs ∨
    gatherTag tag vs = .error .nullDeref ∧ ∃ v ∈ vs, IsNull v
  | [], _ => .inl rfl
  | v :: vs, tag => by
    unfold gatherTag Aead.gatherTag
    cases v with
    | null n => exact .inr ⟨rfl, _, by simp, n, rfl⟩
    | buf d =>
      have hr : (Iovec.buf d).read 0 (Iovec.buf d).len = .ok d := by
        simp [Iovec.read, Iovec.len]
      simp only [hr, exec_bind_ok]
      cases tagAppend tag d with
      | error e => exact .inl rfl
      | ok t =>
        simp only [exec_bind_ok]
        rcases gatherTag_cases vs t with h | ⟨h, v, hv, hn⟩
        · exact .inl h
        · exact .inr ⟨h, v, List.mem_cons_of_mem _ hv, hn⟩

theorem evpDecrypt_cases (L : Lib) (f : EvpFault) (alg : Alg) (key nonce : Bytes)
    (aad ct : List Iovec) (out : Iovec) :
    evpDecrypt L f alg key nonce aad ct out = Aead.evpDecrypt L f alg key nonce aad ct out ∨
    evpDecrypt L f alg key nonce aad ct out = .error .nullDeref ∧
      ((IsNull out ∧ ∃ r, r.status ≠ .ok ∧
          Aead.evpDecrypt L f alg key nonce aad ct out = .ok r) ∨
        ∃ v ∈ ct, IsNull v) := by
  unfold evpDecrypt Aead.evpDecrypt
  split
  · exact .inl rfl
  simp only []
  split
  · exact .inl rfl
  split
  · exact .inl rfl
  split
  · exact .inl rfl
  cases setAad f 0 ⟨alg, key, nonce, [], []⟩ aad with
  | error e => exact .inl rfl
  | ok x =>
    cases x with
    | error e => exact .inl rfl
    | ok c =>
      simp only [exec_bind_ok]
      rcases decLoop_cases L f out ct 0 c out.bytes 0 out.bytes.length (totalLen ct) [] with
        h | ⟨h, hn, ob, e, he, h'⟩
      · rw [h]
        have hrest := decLoop_rest L f ct 0 c out.bytes 0 out.bytes.length (totalLen ct) []
        generalize Aead.decLoop L f 0 c out.bytes 0 out.bytes.length (totalLen ct) [] ct = q at hrest ⊢
        cases q with
        | error e => exact .inl rfl
        | ok q =>
          obtain ⟨ob, q⟩ := q
          cases q with
          | error e => exact .inl rfl
          | ok s =>
            have hrest := hrest ob s rfl
            simp only [exec_bind_ok]
            have hc := clear_cases out ob.length
            split
            · rcases hc with ⟨h1, e1⟩ | ⟨h1, e1⟩
              · exact .inr ⟨by simp only [e1, exec_bind_error], .inl ⟨h1, _, by simp, rfl⟩⟩
              · exact .inl (by simp only [e1, exec_bind_ok])
            cases tagAppend [] s.cur with
            | error e => exact .inl rfl
            | ok tag0 =>
              simp only [exec_bind_ok]
              rcases gatherTag_cases s.rest tag0 with h2 | ⟨h2, v, hv, hnv⟩
              · rw [h2]
                cases Aead.gatherTag tag0 s.rest with
                | error e => exact .inl rfl
                | ok tag =>
                  simp only [exec_bind_ok]
                  split
                  · exact .inl rfl
                  split
                  · rcases hc with ⟨h1, e1⟩ | ⟨h1, e1⟩
                    · exact .inr ⟨by simp only [e1, exec_bind_error], .inl ⟨h1, _, by simp, rfl⟩⟩
                    · exact .inl (by simp only [e1, exec_bind_ok])
                  split
                  · rcases hc with ⟨h1, e1⟩ | ⟨h1, e1⟩
                    · exact .inr ⟨by simp only [e1, exec_bind_error], .inl ⟨h1, _, by simp, rfl⟩⟩
                    · exact .inl (by simp only [e1, exec_bind_ok])
                  · exact .inl rfl
              · exact .inr ⟨by rw [h2]; rfl, .inr ⟨v, hrest v hv, hnv⟩⟩
      · refine .inr ⟨by rw [h]; rfl, .inl ⟨hn, ⟨e, 0, out.setBytes ob⟩, he, ?_⟩⟩
        rw [h']
        rfl

end S2A.NullCopy
