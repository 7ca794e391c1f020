import Verif.Lemmas.Aead
/-
Which status a fault-free AEAD call returns.
-/
namespace S2A.Aead

theorem encLoop_err (L : Lib) (vs : List Iovec) (f : EvpFault) (hf : ∀ n, f.update n = false)
    (k : Nat) (c : Ctx) (out : Bytes) (off rem : Nat) (ob : Bytes) (e : StatusCode)
    (h : encLoop L f k c out off rem vs = .ok (ob, .error e)) : e = .invalidArgument := by
  induction vs generalizing k c out off rem with
  | nil => simp [encLoop] at h
  | cons v vs ih =>
    unfold encLoop at h
    split at h
    · exact ih _ _ _ _ _ h
    · cases v with
      | null n => simp at h; exact h.2.symm
      | buf d =>
        simp only [hf] at h
        split at h
        · simp at h; exact h.2.symm
        · split at h
          · cases h
          · cases hw : writeAt out off (c.encUpdate L d).1 with
            | error u => simp [hw] at h
            | ok o' =>
              cases hs : subSize rem (c.encUpdate L d).1.length with
              | error u => simp [hw, hs] at h
              | ok r' =>
                simp [hw, hs] at h
                exact ih _ _ _ _ _ h

theorem decLoop_err (L : Lib) (vs : List Iovec) (f : EvpFault) (hf : ∀ n, f.update n = false)
    (k : Nat) (c : Ctx) (out : Bytes) (off rem total : Nat) (cur : Bytes) (ob : Bytes)
    (e : StatusCode)
    (h : decLoop L f k c out off rem total cur vs = .ok (ob, .error e)) :
    e = .invalidArgument := by
  induction vs generalizing k c out off rem total cur with
  | nil => simp [decLoop] at h
  | cons v vs ih =>
    unfold decLoop at h
    split at h
    · simp at h
    split at h
    · exact ih _ _ _ _ _ _ _ h
    · cases v with
      | null n => simp at h; exact h.2.symm
      | buf d =>
        simp only [hf] at h
        generalize (if d.length > total - kTagSize then total - kTagSize else d.length) = btw at h
        split at h
        · simp at h; exact h.2.symm
        · split at h
          · cases h
          · cases hw : writeAt out off (c.decUpdate L (d.take btw)).1 with
            | error u => simp [hw] at h
            | ok o' =>
              cases hs : subSize rem (c.decUpdate L (d.take btw)).1.length with
              | error u => simp [hw, hs] at h
              | ok r' =>
                cases hs' : subSize total (c.decUpdate L (d.take btw)).1.length with
                | error u => simp [hw, hs, hs'] at h
                | ok t' =>
                  simp [hw, hs, hs'] at h
                  exact ih _ _ _ _ _ _ _ h

theorem encrypt_err (L : Lib) (c : Crypter) (nonce : Bytes) (aad pt : List Iovec) (ob : Bytes)
    (r : Result) (ha : IntLens aad) (hwa : AllWF aad)
    (h : c.encrypt L .none nonce aad pt (.buf ob) = .ok r) :
    r.status = .ok ∨ r.status = .invalidArgument := by
  unfold Crypter.encrypt at h
  split at h
  · unfold boringEncrypt at h
    simp only [EvpFault.none, Bool.false_eq_true, if_false] at h
    repeat (split at h; · cases h; simp)
    cases hw : writeAt ob 0 (xorKs (L.ks c.alg c.key nonce) 0 (flat pt) ++
        L.mac c.alg c.key nonce (flat aad) (xorKs (L.ks c.alg c.key nonce) 0 (flat pt))) with
    | error u => simp [hw] at h
    | ok o' =>
      simp only [hw, exec_bind_ok] at h
      revert h
      cases subSize ob.length _ with
      | error u => simp
      | ok a =>
        simp only [exec_bind_ok]
        cases subSize ob.length _ with
        | error u => simp
        | ok a =>
          simp only [exec_bind_ok, exec_pure]
          intro h; cases h; simp
  · unfold evpEncrypt at h
    simp only [] at h
    split at h
    · cases h; simp
    obtain ⟨r', h1, h2, h3, h4⟩ := setAad_spec .none aad 0 ⟨c.alg, c.key, nonce, [], []⟩ ha
    have h5 := h4 (fun _ => rfl) hwa
    subst h5
    rw [h1] at h
    simp only [EvpFault.none, Bool.false_eq_true, if_false, exec_bind_ok] at h
    revert h
    generalize hcx : ({ alg := c.alg, key := c.key, nonce := nonce, aad := [] ++ flat aad, ct := [] } : Ctx) = cx
    cases hl : encLoop L .none 0 cx ob 0 ob.length pt with
    | error u => simp only [EvpFault.none] at hl; simp [hl]
    | ok x =>
      obtain ⟨ob', rr⟩ := x
      have hl' := hl
      simp only [EvpFault.none] at hl
      simp only [hl, exec_bind_ok]
      cases rr with
      | error e =>
        have := encLoop_err L pt .none (fun _ => rfl) _ _ _ _ _ _ _ hl'
        subst this
        intro h; cases h; simp
      | ok s =>
        obtain ⟨c', off, rem⟩ := s
        simp only []
        by_cases hr : rem < kTagSize
        · rw [if_pos hr]; intro h; cases h; simp
        · rw [if_neg hr]
          cases writeAt ob' off (c'.tag L) with
          | error u => simp
          | ok a =>
            simp only [exec_bind_ok]
            cases subSize rem kTagSize with
            | error u => simp
            | ok a =>
              simp only [exec_bind_ok]
              cases subSize ob.length a with
              | error u => simp
              | ok a => simp only [exec_bind_ok, exec_pure]; intro h; cases h; simp

/-- The status of a fault-free encryption. -/
theorem encrypt_status (L : Lib) (c : Crypter) (nonce : Bytes) (aad pt : List Iovec) (ob : Bytes)
    (ha : IntLens aad) (hp : IntLens pt) (hwa : AllWF aad) (hwp : AllWF pt) :
    ∃ w ob', c.encrypt L .none nonce aad pt (.buf ob) =
      .ok ⟨if nonce.length = 12 ∧ (flat pt).length + 16 ≤ ob.length then .ok
           else .invalidArgument, w, .buf ob'⟩ := by
  obtain ⟨st, w, ob', h1, h2, h3, h4, h5⟩ := Crypter.encrypt_spec L .none c nonce aad pt ob ha hp
  refine ⟨w, ob', ?_⟩
  rw [h1]
  by_cases hc : nonce.length = 12 ∧ (flat pt).length + 16 ≤ ob.length
  · rw [if_pos hc, h5 rfl hc.1 hwa hwp hc.2]
  · rw [if_neg hc]
    rcases encrypt_err L c nonce aad pt ob _ ha hwa h1 with h | h
    · simp only at h
      obtain ⟨g1, g2, g3, g4, _⟩ := h4 h
      exact absurd ⟨g1, g4⟩ hc
    · simp only at h; rw [h]

/-- The status of a fault-free decryption. -/
def decStatus (L : Lib) (c : Crypter) (nonce aad ct : Bytes) (outLen : Nat) : StatusCode :=
  if nonce.length = 12 ∧ 16 ≤ ct.length ∧ ct.length - 16 ≤ outLen then
    match Spec.aeadOpen L c.alg c.key nonce aad ct with
    | some _ => .ok
    | none => .internal
  else .invalidArgument

theorem decrypt_err (L : Lib) (c : Crypter) (nonce : Bytes) (aad ct : List Iovec) (out : Iovec)
    (r : Result) (ha : IntLens aad) (hc : IntLens ct) (hwa : AllWF aad) (hw : AllWF ct)
    (ho : out.WF) (h : c.decrypt L .none nonce aad ct out = .ok r) :
    (¬ (nonce.length = 12 ∧ 16 ≤ (flat ct).length ∧ (flat ct).length - 16 ≤ out.len) →
      r.status = .invalidArgument) ∧
    (nonce.length = 12 ∧ 16 ≤ (flat ct).length ∧ (flat ct).length - 16 ≤ out.len →
      r.status = .ok ∨ r.status = .internal) := by
  have hol : out.bytes.length = out.len := ho.len_eq.symm
  have hk16 : kTagSize = 16 := rfl
  have hk12 : kNonceSize = 12 := rfl
  unfold Crypter.decrypt at h
  split at h
  · unfold boringDecrypt at h
    rw [if_neg (by simpa using ho)] at h
    simp only [hw.totalLen_eq] at h
    by_cases hn : nonce.length = kNonceSize
    case neg =>
      rw [if_pos hn] at h
      cases h
      exact ⟨fun _ => rfl, fun h => absurd h.1 hn⟩
    rw [if_neg (by simpa using hn), if_neg (by simpa using hasBadNull_false.2 hw)] at h
    by_cases ht : (flat ct).length < kTagSize
    · rw [if_pos ht] at h
      cases h
      exact ⟨fun _ => rfl, fun h => by omega⟩
    rw [if_neg ht] at h
    by_cases hr : out.bytes.length < (flat ct).length - kTagSize
    · rw [if_pos hr] at h
      cases h
      exact ⟨fun _ => rfl, fun h => by omega⟩
    rw [if_neg hr, if_neg (by simpa using hasBadNull_false.2 hwa)] at h
    refine ⟨fun hx => absurd ⟨hn, by omega, by omega⟩ hx, fun _ => ?_⟩
    split at h
    · cases h; simp
    · revert h
      cases writeAt out.bytes 0 _ with
      | error u => simp
      | ok o' =>
        simp only [exec_bind_ok]
        cases subSize out.bytes.length _ with
        | error u => simp
        | ok a =>
          simp only [exec_bind_ok]
          cases subSize out.bytes.length _ with
          | error u => simp
          | ok a =>
            simp only [exec_bind_ok, exec_pure]
            intro h; cases h; simp
  · unfold evpDecrypt at h
    rw [if_neg (by simpa using ho)] at h
    simp only [hw.totalLen_eq] at h
    by_cases ht : (flat ct).length < kTagSize
    · rw [if_pos ht] at h
      cases h
      exact ⟨fun _ => rfl, fun h => by omega⟩
    rw [if_neg ht] at h
    by_cases hn : nonce.length = kNonceSize
    case neg =>
      rw [if_pos hn] at h
      cases h
      exact ⟨fun _ => rfl, fun h => absurd h.1 hn⟩
    rw [if_neg (by simpa using hn)] at h
    obtain ⟨r', h1, h2, h3, h4⟩ := setAad_spec .none aad 0 ⟨c.alg, c.key, nonce, [], []⟩ ha
    have h5 := h4 (fun _ => rfl) hwa
    subst h5
    rw [h1] at h
    rw [if_neg (by simp [EvpFault.none])] at h
    simp only [exec_bind_ok] at h
    revert h
    generalize hcx : ({ alg := c.alg, key := c.key, nonce := nonce, aad := [] ++ flat aad, ct := [] } : Ctx) = cx
    obtain ⟨ob1, r1, g1, gl, g2, g3, g4⟩ := decLoop_spec L .none ct 0 cx [] out.bytes
      (flat ct).length [] hc hw (by simp) (fun _ => rfl) (by omega)
    simp only [List.nil_append, List.length_nil] at g1
    rw [g1, exec_bind_ok]
    cases r1 with
    | error e =>
      have := decLoop_err L ct .none (fun _ => rfl) _ _ _ _ _ _ _ _ _ g1
      subst this
      intro h; cases h
      refine ⟨fun _ => rfl, fun hx => ?_⟩
      obtain ⟨s, hs⟩ := g4 (fun _ => rfl) (by omega)
      cases hs
    | ok s =>
      obtain ⟨q1, q2, q3, q4, q5, q6, q7⟩ := g2 s rfl
      simp only [List.nil_append, List.length_take] at q1
      intro h
      refine ⟨fun hx => absurd ⟨hn, by omega, by omega⟩ hx, fun _ => ?_⟩
      revert h
      simp only []
      rw [if_neg (by rw [q5]; simp)]
      cases tagAppend [] s.cur with
      | error u => simp
      | ok t =>
        simp only [exec_bind_ok]
        cases gatherTag t s.rest with
        | error u => simp
        | ok t' =>
          simp only [exec_bind_ok]
          split
          · simp
          · rw [if_neg (by simp [EvpFault.none])]
            by_cases hm : (EvpFault.none.final || decide (s.ctx.tag L ≠ t')) = true
            · rw [if_pos hm]; simp only [exec_pure]; intro h; cases h; simp
            · rw [if_neg hm]
              cases subSize out.bytes.length s.rem with
              | error u => simp
              | ok a => simp only [exec_bind_ok, exec_pure]; intro h; cases h; simp

theorem decrypt_status (L : Lib) (c : Crypter) (nonce : Bytes) (aad ct : List Iovec)
    (out : Iovec) (ha : IntLens aad) (hc : IntLens ct) (hwa : AllWF aad) (hw : AllWF ct)
    (ho : out.WF) :
    ∃ w out', c.decrypt L .none nonce aad ct out =
      .ok ⟨decStatus L c nonce (flat aad) (flat ct) out.len, w, out'⟩ := by
  obtain ⟨st, w, ob', h1, h2, h3, h4, h5, h6⟩ :=
    Crypter.decrypt_spec L .none c nonce aad ct out ha hc hw ho
  refine ⟨w, out.setBytes ob', ?_⟩
  rw [h1]
  obtain ⟨e1, e2⟩ := decrypt_err L c nonce aad ct out _ ha hc hwa hw ho h1
  simp only at e1 e2
  unfold decStatus
  by_cases hx : nonce.length = 12 ∧ 16 ≤ (flat ct).length ∧ (flat ct).length - 16 ≤ out.len
  · rw [if_pos hx]
    cases hopen : Spec.aeadOpen L c.alg c.key nonce (flat aad) (flat ct) with
    | some p =>
      rw [h5 rfl hx.1 hwa hx.2.2 ⟨p, hopen⟩]
    | none =>
      rcases e2 hx with h | h
      · obtain ⟨_, _, p, hp, _⟩ := h4 h
        rw [hopen] at hp; cases hp
      · rw [h]
  · rw [if_neg hx, e1 hx]

end S2A.Aead
