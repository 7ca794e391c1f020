import Verif.Model.Aead
import Verif.Spec.Aead
import Verif.Lemmas.Base
namespace S2A.Aead

@[simp] theorem xorKs_length (s p b) : (xorKs s p b).length = b.length := by
  induction b generalizing p with
  | nil => rfl
  | cons b bs ih => simp [xorKs, ih]

theorem xorKs_append (s p a b) :
    xorKs s p (a ++ b) = xorKs s p a ++ xorKs s (p + a.length) b := by
  induction a generalizing p with
  | nil => simp [xorKs]
  | cons x xs ih => simp [xorKs, ih, Nat.add_assoc, Nat.add_comm 1]

theorem xorKs_xorKs (s p b) : xorKs s p (xorKs s p b) = b := by
  induction b generalizing p with
  | nil => rfl
  | cons x xs ih => simp [xorKs, ih, UInt8.xor_assoc]

theorem xorKs_eq_mapIdx (s : Nat → UInt8) (p : Nat) (b : Bytes) :
    xorKs s p b = b.mapIdx fun i x => x ^^^ s (p + i) := by
  induction b generalizing p with
  | nil => rfl
  | cons x xs ih =>
    simp only [xorKs, ih, List.mapIdx_cons, Nat.add_zero]
    congr 2
    funext i x
    simp [Nat.add_assoc, Nat.add_comm 1 i]

theorem xorKs_zero (s : Nat → UInt8) (b : Bytes) : xorKs s 0 b = Spec.stream s b := by
  simp [xorKs_eq_mapIdx, Spec.stream]

theorem IntLens.head {v : Iovec} {vs} (h : IntLens (v :: vs)) : v.len < intBound := h v (by simp)
theorem IntLens.tail {v : Iovec} {vs} (h : IntLens (v :: vs)) : IntLens vs :=
  fun w hw => h w (by simp [hw])

theorem setAad_spec (f : EvpFault) (vs : List Iovec) (k : Nat) (c : Ctx) (hi : IntLens vs) :
    ∃ r, setAad f k c vs = .ok r ∧
      (∀ c', r = .ok c' → AllWF vs ∧ c' = { c with aad := c.aad ++ flat vs }) ∧
      (∀ e, r = .error e → e ≠ .ok) ∧
      ((∀ n, f.aad n = false) → AllWF vs → r = .ok { c with aad := c.aad ++ flat vs }) := by
  induction vs generalizing k c with
  | nil =>
    refine ⟨_, rfl, ?_, ?_, ?_⟩
    · rintro c' ⟨⟩; exact ⟨allWF_nil, by simp⟩
    · rintro e ⟨⟩
    · intros; simp
  | cons v vs ih =>
    unfold setAad
    split
    · next h0 =>
      obtain ⟨r, h1, h2, h3, h4⟩ := ih (k + 1) c hi.tail
      have hb : v.bytes = [] := by
        cases v with
        | null n => rfl
        | buf d => simpa [Iovec.len, Iovec.bytes] using h0
      have hw : v.WF := by
        cases v with
        | null n => simpa [Iovec.len, Iovec.WF] using h0
        | buf d => trivial
      refine ⟨r, h1, ?_, h3, ?_⟩
      · intro c' hc
        obtain ⟨ha, hb'⟩ := h2 c' hc
        exact ⟨AllWF.cons hw ha, by simp [hb, hb']⟩
      · intro hf ha
        simpa [hb] using h4 hf ha.tail
    · next h0 =>
      cases v with
      | null n =>
        refine ⟨_, rfl, ?_, ?_, ?_⟩
        · rintro c' ⟨⟩
        · rintro e ⟨⟩; decide
        · intro _ ha
          exact absurd ha.head (by simpa [Iovec.WF, Iovec.len] using h0)
      | buf d =>
        have hlt : d.length < intBound := hi.head
        simp only [Nat.not_le.2 hlt, if_false]
        split
        · next hf =>
          refine ⟨_, rfl, ?_, ?_, ?_⟩
          · rintro c' ⟨⟩
          · rintro e ⟨⟩; decide
          · intro hf' _; simp [hf'] at hf
        · next hf =>
          obtain ⟨r, h1, h2, h3, h4⟩ := ih (k + 1) { c with aad := c.aad ++ d } hi.tail
          refine ⟨r, h1, ?_, h3, ?_⟩
          · intro c' hc
            obtain ⟨ha, hb'⟩ := h2 c' hc
            exact ⟨AllWF.cons trivial ha, by simp [Iovec.bytes, hb']⟩
          · intro hf ha
            simpa [Iovec.bytes] using h4 hf ha.tail

theorem encLoop_spec (L : Lib) (f : EvpFault) (vs : List Iovec) (k : Nat) (c : Ctx)
    (pre tail : Bytes) (hi : IntLens vs) :
    ∃ ob r, encLoop L f k c (pre ++ tail) pre.length tail.length vs = .ok (ob, r) ∧
      ob.length = (pre ++ tail).length ∧
      (∀ s, r = .ok s → AllWF vs ∧ (flat vs).length ≤ tail.length ∧
        (let o := xorKs (L.ks c.alg c.key c.nonce) c.ct.length (flat vs)
         ob = pre ++ o ++ tail.drop o.length ∧
         s = ({ c with ct := c.ct ++ o }, pre.length + o.length, tail.length - o.length))) ∧
      (∀ e, r = .error e → e ≠ .ok) ∧
      ((∀ n, f.update n = false) → AllWF vs → (flat vs).length ≤ tail.length →
        ∃ s, r = .ok s) := by
  induction vs generalizing k c pre tail with
  | nil =>
    refine ⟨_, _, rfl, rfl, ?_, ?_, ?_⟩
    · rintro s ⟨⟩; exact ⟨allWF_nil, by simp, by simp [xorKs]⟩
    · rintro e ⟨⟩
    · intros; exact ⟨_, rfl⟩
  | cons v vs ih =>
    unfold encLoop
    split
    · next h0 =>
      obtain ⟨ob, r, h1, hl, h2, h3, h4⟩ := ih (k + 1) c pre tail hi.tail
      have hb : v.bytes = [] := by
        cases v with
        | null n => rfl
        | buf d => simpa [Iovec.len, Iovec.bytes] using h0
      have hw : v.WF := by
        cases v with
        | null n => simpa [Iovec.len, Iovec.WF] using h0
        | buf d => trivial
      refine ⟨ob, r, h1, hl, ?_, h3, ?_⟩
      · intro s hs
        obtain ⟨ha, hb'⟩ := h2 s hs
        exact ⟨AllWF.cons hw ha, by simpa [hb] using hb'⟩
      · intro hf ha hle
        exact h4 hf ha.tail (by simpa [hb] using hle)
    · next h0 =>
      cases v with
      | null n =>
        refine ⟨_, _, rfl, rfl, ?_, ?_, ?_⟩
        · rintro c' ⟨⟩
        · rintro e ⟨⟩; decide
        · intro _ ha
          exact absurd ha.head (by simpa [Iovec.WF, Iovec.len] using h0)
      | buf d =>
        have hlt : d.length < intBound := hi.head
        simp only [Nat.not_le.2 hlt, if_false]
        split
        · next hr =>
          refine ⟨_, _, rfl, rfl, ?_, ?_, ?_⟩
          · rintro c' ⟨⟩
          · rintro e ⟨⟩; decide
          · intro _ _ hle
            simp [Iovec.bytes] at hle
            omega
        · next hr =>
        split
        · next hf =>
          refine ⟨_, _, rfl, rfl, ?_, ?_, ?_⟩
          · rintro c' ⟨⟩
          · rintro e ⟨⟩; decide
          · intro hf' _; simp [hf'] at hf
        · next hf =>
          simp only [Ctx.encUpdate]
          rw [writeAt_append _ _ _ (by simpa using hr)]
          simp only [xorKs_length]
          rw [subSize_ok (Nat.not_lt.1 hr)]
          simp only [exec_bind_ok]
          obtain ⟨ob, r, h1, hl, h2, h3, h4⟩ :=
            ih (k + 1)
              { c with ct := c.ct ++ xorKs (L.ks c.alg c.key c.nonce) c.ct.length d }
              (pre ++ xorKs (L.ks c.alg c.key c.nonce) c.ct.length d)
              (tail.drop d.length) hi.tail
          simp only [List.length_append, xorKs_length, List.length_drop] at h1
          refine ⟨ob, r, h1, ?_, ?_, h3, ?_⟩
          · rw [hl]; simp; omega
          · intro s hs
            obtain ⟨ha, hb', hc, hd⟩ := h2 s hs
            refine ⟨AllWF.cons trivial ha, ?_, ?_, ?_⟩
            · simp [Iovec.bytes] at hb' ⊢; omega
            · rw [hc]
              simp [Iovec.bytes, xorKs_append, List.drop_drop]
            · rw [hd]
              simp [Iovec.bytes, xorKs_append]
              omega
          · intro hf' ha hle
            apply h4 hf' ha.tail
            simp [Iovec.bytes] at hle ⊢; omega

theorem gatherTag_spec (vs : List Iovec) (tag : Bytes) (hw : AllWF vs)
    (h : tag.length + (flat vs).length ≤ 16) : gatherTag tag vs = .ok (tag ++ flat vs) := by
  induction vs generalizing tag with
  | nil => simp [gatherTag]
  | cons v vs ih =>
    have hv : v.read 0 v.len = .ok v.bytes := by
      cases v with
      | null n =>
        have : n = 0 := hw.head
        subst this
        simp [Iovec.read, Iovec.len, Iovec.bytes]
      | buf d => simp [Iovec.read, Iovec.len, Iovec.bytes]
    simp only [flat_cons, List.length_append] at h
    have ht : tagAppend tag v.bytes = .ok (tag ++ v.bytes) := by
      unfold tagAppend kTagSize
      rw [if_pos (by omega)]
    unfold gatherTag
    rw [hv, exec_bind_ok, ht, exec_bind_ok, ih _ hw.tail (by simp; omega)]
    simp

theorem decLoop_spec (L : Lib) (f : EvpFault) (vs : List Iovec) (k : Nat) (c : Ctx)
    (pre tail : Bytes) (total : Nat) (cur : Bytes) (hi : IntLens vs) (hw : AllWF vs)
    (ht : total = cur.length + (flat vs).length) (hcur : 16 < total → cur = [])
    (h16 : 16 ≤ total) :
    ∃ ob r, decLoop L f k c (pre ++ tail) pre.length tail.length total cur vs = .ok (ob, r) ∧
      ob.length = (pre ++ tail).length ∧
      (∀ s, r = .ok s →
        (let D := (cur ++ flat vs).take (total - 16)
         let o := xorKs (L.ks c.alg c.key c.nonce) c.ct.length D
         D.length ≤ tail.length ∧
         ob = pre ++ o ++ tail.drop o.length ∧
         s.ctx = { c with ct := c.ct ++ D } ∧ s.rem = tail.length - D.length ∧
         s.total = 16 ∧ s.cur ++ flat s.rest = (cur ++ flat vs).drop (total - 16) ∧
         AllWF s.rest)) ∧
      (∀ e, r = .error e → e ≠ .ok ∧
        (ob = zeros (pre ++ tail).length ∨ tail.length < total - 16)) ∧
      ((∀ n, f.update n = false) → total - 16 ≤ tail.length → ∃ s, r = .ok s) := by
  induction vs generalizing k c pre tail total cur with
  | nil =>
    have h0 : total = 16 := by
      simp only [flat_nil, List.length_nil, Nat.add_zero] at ht
      by_cases h : 16 < total
      · have := hcur h; subst this; simp at ht; omega
      · omega
    subst h0
    refine ⟨_, _, rfl, rfl, ?_, ?_, ?_⟩
    · rintro s ⟨⟩
      simp [xorKs, allWF_nil]
    · rintro e ⟨⟩
    · intros; exact ⟨_, rfl⟩
  | cons v vs ih =>
    unfold decLoop
    simp only [kTagSize]
    by_cases hle : total ≤ 16
    · rw [if_pos hle]
      have h0 : total = 16 := by omega
      subst h0
      refine ⟨_, _, rfl, rfl, ?_, ?_, ?_⟩
      · rintro s ⟨⟩
        simp [xorKs]
        exact hw
      · rintro e ⟨⟩
      · intros; exact ⟨_, rfl⟩
    rw [if_neg hle]
    have hcur' : cur = [] := hcur (by omega)
    subst hcur'
    by_cases h0 : v.len = 0
    · rw [if_pos h0]
      have hb : v.bytes = [] := by
        have := hw.head.len_eq
        rw [h0] at this
        exact List.eq_nil_of_length_eq_zero this.symm
      obtain ⟨ob, r, h1, hl, h2, h3, h4⟩ := ih (k + 1) c pre tail total [] hi.tail hw.tail
        (by simpa [hb] using ht) (fun _ => rfl) h16
      refine ⟨ob, r, h1, hl, ?_, h3, h4⟩
      intro s hs
      simpa [hb] using h2 s hs
    · rw [if_neg h0]
      cases v with
      | null n => exact absurd hw.head (by simpa [Iovec.WF, Iovec.len] using h0)
      | buf d =>
        simp only [flat_cons, Iovec.bytes, List.length_append, List.length_nil, Nat.zero_add] at ht
        have hlt : d.length < intBound := hi.head
        have hbt : (if d.length > total - 16 then total - 16 else d.length) =
            min d.length (total - 16) := by
          split <;> omega
        simp only [hbt]
        by_cases hr : tail.length < min d.length (total - 16)
        · rw [if_pos hr]
          refine ⟨_, _, rfl, rfl, ?_, ?_, ?_⟩
          · rintro s ⟨⟩
          · rintro e ⟨⟩; exact ⟨by decide, Or.inr (by omega)⟩
          · intro _ hle; omega
        rw [if_neg hr, if_neg (by omega)]
        by_cases hf : f.update k = true
        · rw [if_pos hf]
          refine ⟨_, _, rfl, by simp, ?_, ?_, ?_⟩
          · rintro s ⟨⟩
          · rintro e ⟨⟩; exact ⟨by decide, Or.inl rfl⟩
          · intro hf' _; simp [hf'] at hf
        · rw [if_neg hf]
          simp only [Ctx.decUpdate]
          have hbl : (d.take (min d.length (total - 16))).length = min d.length (total - 16) := by
            simp
          rw [writeAt_append _ _ _ (by simp; omega)]
          simp only [xorKs_length, hbl]
          rw [subSize_ok (by omega), subSize_ok (by omega)]
          simp only [exec_bind_ok]
          obtain ⟨ob, r, h1, hl, h2, h3, h4⟩ :=
            ih (k + 1)
              { c with ct := c.ct ++ d.take (min d.length (total - 16)) }
              (pre ++ xorKs (L.ks c.alg c.key c.nonce) c.ct.length
                (d.take (min d.length (total - 16))))
              (tail.drop (min d.length (total - 16)))
              (total - min d.length (total - 16))
              (d.drop (min d.length (total - 16))) hi.tail hw.tail
              (by simp; omega)
              (by intro h; apply List.drop_eq_nil_of_le; omega)
              (by omega)
          simp only [List.length_append, xorKs_length, List.length_drop, hbl] at h1
          refine ⟨ob, r, h1, ?_, ?_, ?_, ?_⟩
          · rw [hl]; simp; omega
          · intro s hs
            obtain ⟨g1, g2, g3, g4, g5, g6, g7⟩ := h2 s hs
            -- the bytes consumed now and later
            have hsplit : (([] : Bytes) ++ flat (Iovec.buf d :: vs)).take (total - 16) =
                d.take (min d.length (total - 16)) ++
                  (d.drop (min d.length (total - 16)) ++ flat vs).take
                    (total - min d.length (total - 16) - 16) := by
              simp only [flat_cons, Iovec.bytes, List.nil_append]
              by_cases hd : d.length ≤ total - 16
              · rw [Nat.min_eq_left hd, List.take_append, List.take_of_length_le (by omega)]
                simp
                congr 1; omega
              · rw [Nat.min_eq_right (by omega)]
                rw [List.take_append, show total - 16 - d.length = 0 by omega,
                  show total - (total - 16) - 16 = 0 by omega]
                simp
            have hdrop : (([] : Bytes) ++ flat (Iovec.buf d :: vs)).drop (total - 16) =
                (d.drop (min d.length (total - 16)) ++ flat vs).drop
                    (total - min d.length (total - 16) - 16) := by
              simp only [flat_cons, Iovec.bytes, List.nil_append]
              by_cases hd : d.length ≤ total - 16
              · rw [Nat.min_eq_left hd, List.drop_append, List.drop_of_length_le (by omega)]
                simp
                congr 1; omega
              · rw [Nat.min_eq_right (by omega)]
                rw [List.drop_append, show total - 16 - d.length = 0 by omega,
                  show total - (total - 16) - 16 = 0 by omega]
                simp
            simp only [hsplit, hdrop]
            simp only [List.length_drop, List.length_append, xorKs_length, hbl] at g1 g2 g4 ⊢
            refine ⟨by omega, ?_, ?_, by omega, g5, g6, g7⟩
            · rw [g2, xorKs_append]
              simp [List.drop_drop, hbl]
            · rw [g3]; simp
          · intro e he
            obtain ⟨e1, e2⟩ := h3 e he
            refine ⟨e1, ?_⟩
            rcases e2 with e2 | e2
            · left
              rw [e2]
              congr 1
              simp; omega
            · right
              simp at e2; omega
          · intro hf' hle
            apply h4 hf'
            simp; omega

/-- What a caller of `Encrypt` can rely on, for an output buffer with contents `ob`. -/
def EncSpec (L : Lib) (f : EvpFault) (alg : Alg) (key nonce : Bytes) (aad pt : List Iovec)
    (ob : Bytes) (e : Exec Result) : Prop :=
  ∃ st w ob', e = .ok ⟨st, w, .buf ob'⟩ ∧ ob'.length = ob.length ∧
    (st ≠ .ok → w = 0) ∧
    (st = .ok → nonce.length = 12 ∧ AllWF aad ∧ AllWF pt ∧
      (flat pt).length + 16 ≤ ob.length ∧ w = (flat pt).length + 16 ∧
      ob' = Spec.aeadSeal L alg key nonce (flat aad) (flat pt) ++
        ob.drop ((flat pt).length + 16)) ∧
    (f = .none → nonce.length = 12 → AllWF aad → AllWF pt →
      (flat pt).length + 16 ≤ ob.length → st = .ok)

theorem evpEncrypt_spec (L : Lib) (f : EvpFault) (alg : Alg) (key nonce : Bytes)
    (aad pt : List Iovec) (ob : Bytes) (ha : IntLens aad) (hp : IntLens pt) :
    EncSpec L f alg key nonce aad pt ob (evpEncrypt L f alg key nonce aad pt (.buf ob)) := by
  have hk16 : kTagSize = 16 := rfl
  unfold evpEncrypt
  simp only []
  by_cases hn : nonce.length = kNonceSize
  case neg =>
    rw [if_pos hn]
    exact ⟨_, _, _, rfl, rfl, fun _ => rfl, (by intro h; cases h), fun _ h => absurd h hn⟩
  rw [if_neg (by simpa using hn)]
  by_cases hfi : f.init = true
  · rw [if_pos hfi]
    exact ⟨_, _, _, rfl, rfl, fun _ => rfl, (by intro h; cases h),
      fun h => by subst h; cases hfi⟩
  rw [if_neg hfi]
  obtain ⟨r, h1, h2, h3, h4⟩ := setAad_spec f aad 0 ⟨alg, key, nonce, [], []⟩ ha
  rw [h1, exec_bind_ok]
  cases r with
  | error e =>
    refine ⟨_, _, _, rfl, rfl, fun _ => rfl, fun h => absurd h (h3 e rfl), ?_⟩
    intro hf _ hwa
    have := h4 (by subst hf; intro n; rfl) hwa
    cases this
  | ok c =>
    obtain ⟨hwa, hc⟩ := h2 c rfl
    obtain ⟨ob1, r1, g1, gl, g2, g3, g4⟩ := encLoop_spec L f pt 0 c [] ob hp
    simp only [List.nil_append, List.length_nil] at g1 gl
    simp only [g1, exec_bind_ok]
    cases r1 with
    | error e =>
      refine ⟨_, _, _, rfl, gl, fun _ => rfl, fun h => absurd h (g3 e rfl), ?_⟩
      intro hf _ _ hwp hroom
      obtain ⟨s, hs⟩ := g4 (by subst hf; intro n; rfl) hwp (by omega)
      cases hs
    | ok s =>
      obtain ⟨hwp, hle, hob, hs⟩ := g2 s rfl
      subst hs
      simp only [List.nil_append, List.length_nil, Nat.zero_add, xorKs_length] at hob ⊢
      by_cases hff : f.final = true
      · rw [if_pos hff]
        exact ⟨_, _, _, rfl, gl, fun _ => rfl, (by intro h; cases h),
          fun h => by subst h; cases hff⟩
      rw [if_neg hff]
      by_cases hroom : ob.length - (flat pt).length < kTagSize
      · rw [if_pos hroom]
        refine ⟨_, _, _, rfl, gl, fun _ => rfl, (by intro h; cases h), ?_⟩
        intro _ _ _ _ h
        simp only [kTagSize] at hroom
        omega
      rw [if_neg hroom]
      by_cases hft : f.tag = true
      · rw [if_pos hft]
        exact ⟨_, _, _, rfl, gl, fun _ => rfl, (by intro h; cases h),
          fun h => by subst h; cases hft⟩
      rw [if_neg hft]
      simp only [kTagSize] at hroom
      subst hc
      simp only [List.nil_append, List.length_nil] at hob ⊢
      have hw := writeAt_append (xorKs (L.ks alg key nonce) 0 (flat pt))
        (Ctx.tag L ⟨alg, key, nonce, flat aad, xorKs (L.ks alg key nonce) 0 (flat pt)⟩)
        (ob.drop (flat pt).length)
        (by simp only [Ctx.tag, L.mac_len, List.length_drop]; omega)
      rw [xorKs_length] at hw
      rw [hob, hw, exec_bind_ok, subSize_ok (by omega), exec_bind_ok, subSize_ok (by omega),
        exec_bind_ok]
      refine ⟨_, _, _, rfl, ?_, fun h => absurd rfl h, ?_, fun _ _ _ _ _ => rfl⟩
      · simp [Ctx.tag, L.mac_len]; omega
      · intro _
        refine ⟨hn, hwa, hwp, by omega, by omega, ?_⟩
        simp [Spec.aeadSeal, Ctx.tag, xorKs_zero, L.mac_len, List.drop_drop]

/-- What a caller of `Decrypt` can rely on, for an output buffer `out`. -/
def DecSpec (L : Lib) (f : EvpFault) (alg : Alg) (key nonce : Bytes) (aad ct : List Iovec)
    (out : Iovec) (e : Exec Result) : Prop :=
  ∃ st w ob', e = .ok ⟨st, w, out.setBytes ob'⟩ ∧ ob'.length = out.len ∧
    (st ≠ .ok → w = 0 ∧ (ob' = out.bytes ∨ ob' = zeros out.len ∨
      out.len < (flat ct).length - 16)) ∧
    (st = .ok → nonce.length = 12 ∧ AllWF aad ∧
      ∃ p, Spec.aeadOpen L alg key nonce (flat aad) (flat ct) = some p ∧
        w = p.length ∧ p.length ≤ out.len ∧ ob' = p ++ out.bytes.drop p.length) ∧
    (f = .none → nonce.length = 12 → AllWF aad → (flat ct).length - 16 ≤ out.len →
      (∃ p, Spec.aeadOpen L alg key nonce (flat aad) (flat ct) = some p) → st = .ok) ∧
    (f = .none → nonce.length = 12 → AllWF aad → (flat ct).length - 16 ≤ out.len →
      16 ≤ (flat ct).length → st ≠ .ok → ob' = zeros out.len)

theorem stream_length (s : Nat → UInt8) (b : Bytes) : (Spec.stream s b).length = b.length := by
  simp [Spec.stream]

theorem aeadOpen_length {L : Lib} {alg key nonce aad c p}
    (h : Spec.aeadOpen L alg key nonce aad c = some p) :
    16 ≤ c.length ∧ p.length = c.length - 16 := by
  unfold Spec.aeadOpen at h
  split at h
  · cases h
  · next hl =>
    simp only [] at h
    split at h
    · cases h
      simp [stream_length]
      omega
    · cases h

theorem evpDecrypt_spec (L : Lib) (f : EvpFault) (alg : Alg) (key nonce : Bytes)
    (aad ct : List Iovec) (out : Iovec) (ha : IntLens aad) (hc : IntLens ct) (hw : AllWF ct)
    (ho : out.WF) :
    DecSpec L f alg key nonce aad ct out (evpDecrypt L f alg key nonce aad ct out) := by
  have hol : out.bytes.length = out.len := ho.len_eq.symm
  have hk16 : kTagSize = 16 := rfl
  unfold evpDecrypt
  rw [if_neg (by simpa using ho)]
  simp only [hw.totalLen_eq]
  by_cases ht : (flat ct).length < kTagSize
  · rw [if_pos ht]
    refine ⟨.invalidArgument, 0, out.bytes, by rw [Iovec.setBytes_bytes ho], hol,
      fun _ => ⟨rfl, Or.inl rfl⟩, (by intro h; cases h), ?_, ?_⟩
    · rintro _ _ _ _ ⟨p, hp⟩
      have := (aeadOpen_length hp).1
      simp only [kTagSize] at ht
      omega
    · intro _ _ _ _ h
      simp only [kTagSize] at ht
      omega
  rw [if_neg ht]
  simp only [kTagSize] at ht
  by_cases hn : nonce.length = kNonceSize
  case neg =>
    rw [if_pos hn]
    exact ⟨.invalidArgument, 0, out.bytes, by rw [Iovec.setBytes_bytes ho], hol,
      fun _ => ⟨rfl, Or.inl rfl⟩, (by intro h; cases h), fun _ h => absurd h hn,
      fun _ h => absurd h hn⟩
  rw [if_neg (by simpa using hn)]
  by_cases hfi : f.init = true
  · rw [if_pos hfi]
    exact ⟨.internal, 0, out.bytes, by rw [Iovec.setBytes_bytes ho], hol,
      fun _ => ⟨rfl, Or.inl rfl⟩, (by intro h; cases h), (fun h => by subst h; cases hfi),
      (fun h => by subst h; cases hfi)⟩
  rw [if_neg hfi]
  obtain ⟨r, h1, h2, h3, h4⟩ := setAad_spec f aad 0 ⟨alg, key, nonce, [], []⟩ ha
  rw [h1, exec_bind_ok]
  cases r with
  | error e =>
    have hcontra : f = .none → AllWF aad → False := by
      intro hf hwa
      have := h4 (by subst hf; intro n; rfl) hwa
      cases this
    exact ⟨e, 0, out.bytes, by rw [Iovec.setBytes_bytes ho]; rfl, hol,
      fun _ => ⟨rfl, Or.inl rfl⟩, fun h => absurd h (h3 e rfl),
      fun hf _ hwa => absurd (hcontra hf hwa) id, fun hf _ hwa => absurd (hcontra hf hwa) id⟩
  | ok c =>
    obtain ⟨hwa, hcx⟩ := h2 c rfl
    obtain ⟨ob1, r1, g1, gl, g2, g3, g4⟩ := decLoop_spec L f ct 0 c [] out.bytes
      (flat ct).length [] hc hw (by simp) (fun _ => rfl) (by omega)
    simp only [List.nil_append, List.length_nil] at g1 gl
    simp only [g1, exec_bind_ok]
    cases r1 with
    | error e =>
      refine ⟨e, 0, ob1, rfl, by omega, ?_, fun h => absurd h (g3 e rfl).1, ?_, ?_⟩
      · intro _
        refine ⟨rfl, Or.inr ?_⟩
        rcases (g3 e rfl).2 with h | h
        · left; rw [h]; simp [hol]
        · right; omega
      · intro hf _ _ hroom
        obtain ⟨s, hs⟩ := g4 (by subst hf; intro n; rfl) (by omega)
        cases hs
      · intro hf _ _ hroom
        obtain ⟨s, hs⟩ := g4 (by subst hf; intro n; rfl) (by omega)
        cases hs
    | ok s =>
      obtain ⟨q1, q2, q3, q4, q5, q6, q7⟩ := g2 s rfl
      simp only [List.nil_append, xorKs_length] at q1 q2 q3 q4 q6
      simp only []
      rw [if_neg (by rw [q5]; simp)]
      have hlen : s.cur.length + (flat s.rest).length = 16 := by
        rw [← List.length_append, q6]; simp; omega
      have hta : tagAppend [] s.cur = .ok s.cur := by
        unfold tagAppend kTagSize
        rw [if_pos (by simp; omega)]; rfl
      rw [hta, exec_bind_ok, gatherTag_spec _ _ q7 (by omega), exec_bind_ok, q6]
      rw [if_neg (by simp; omega)]
      have hzero : (zeros ob1.length).length = out.len := by simp; omega
      by_cases hft : f.tag = true
      · rw [if_pos hft]
        exact ⟨_, _, _, rfl, hzero, fun _ => ⟨rfl, Or.inr (Or.inl (by rw [gl, hol]))⟩,
          (by intro h; cases h), (fun h => by subst h; cases hft),
          (fun h => by subst h; cases hft)⟩
      rw [if_neg hft]
      have htag : s.ctx.tag L = L.mac alg key nonce (flat aad)
          ((flat ct).take ((flat ct).length - 16)) := by
        rw [q3, hcx]; simp [Ctx.tag]
      rw [htag]
      by_cases hfin : f.final = true
      · rw [if_pos (by simp [hfin])]
        exact ⟨_, _, _, rfl, hzero, fun _ => ⟨rfl, Or.inr (Or.inl (by rw [gl, hol]))⟩,
          (by intro h; cases h), (fun h => by subst h; cases hfin),
          (fun h => by subst h; cases hfin)⟩
      by_cases hm : L.mac alg key nonce (flat aad) ((flat ct).take ((flat ct).length - 16)) =
          (flat ct).drop ((flat ct).length - 16)
      · rw [if_neg (by simp [hfin, hm])]
        have hsub : subSize out.bytes.length s.rem = .ok ((flat ct).length - 16) := by
          rw [subSize_ok (by omega), q4]
          simp only [List.length_take] at q1 ⊢
          congr 1; omega
        rw [hsub, exec_bind_ok]
        refine ⟨_, _, _, rfl, by omega, fun h => absurd rfl h, ?_, fun _ _ _ _ _ => rfl,
          fun _ _ _ _ _ h => absurd rfl h⟩
        intro _
        refine ⟨hn, hwa, Spec.stream (L.ks alg key nonce) ((flat ct).take ((flat ct).length - 16)),
          ?_, ?_, ?_, ?_⟩
        · unfold Spec.aeadOpen
          rw [if_neg (by omega)]
          simp [hm]
        · simp [stream_length]
        · simp only [stream_length]; omega
        · rw [q2, hcx, ← xorKs_zero]
          simp
      · rw [if_pos (by simp [hm])]
        refine ⟨_, _, _, rfl, hzero, fun _ => ⟨rfl, Or.inr (Or.inl (by rw [gl, hol]))⟩,
          (by intro h; cases h), ?_, fun _ _ _ _ _ _ => by rw [gl, hol]⟩
        rintro _ _ _ _ ⟨p, hp⟩
        unfold Spec.aeadOpen at hp
        rw [if_neg (by omega)] at hp
        simp [hm] at hp

theorem hasBadNull_false {vs : List Iovec} : hasBadNull vs = false ↔ AllWF vs := by
  simp [hasBadNull, AllWF]

theorem boringEncrypt_spec (L : Lib) (f : EvpFault) (alg : Alg) (key nonce : Bytes)
    (aad pt : List Iovec) (ob : Bytes) :
    EncSpec L f alg key nonce aad pt ob (boringEncrypt L f alg key nonce aad pt (.buf ob)) := by
  have hk16 : kTagSize = 16 := rfl
  unfold boringEncrypt
  simp only []
  by_cases hn : nonce.length = kNonceSize
  case neg =>
    rw [if_pos hn]
    exact ⟨_, _, _, rfl, rfl, fun _ => rfl, (by intro h; cases h), fun _ h => absurd h hn⟩
  rw [if_neg (by simpa using hn)]
  by_cases hp : hasBadNull pt = true
  · rw [if_pos hp]
    refine ⟨_, _, _, rfl, rfl, fun _ => rfl, (by intro h; cases h), ?_⟩
    intro _ _ _ h
    rw [← hasBadNull_false, hp] at h
    cases h
  rw [if_neg hp]
  have hwp : AllWF pt := hasBadNull_false.1 (by simpa using hp)
  rw [hwp.totalLen_eq]
  by_cases hroom : ob.length < kTagSize + (flat pt).length
  · rw [if_pos hroom]
    refine ⟨_, _, _, rfl, rfl, fun _ => rfl, (by intro h; cases h), ?_⟩
    intro _ _ _ _ h
    simp only [kTagSize] at hroom
    omega
  rw [if_neg hroom]
  simp only [kTagSize] at hroom
  by_cases ha : hasBadNull aad = true
  · rw [if_pos ha]
    refine ⟨_, _, _, rfl, rfl, fun _ => rfl, (by intro h; cases h), ?_⟩
    intro _ _ h
    rw [← hasBadNull_false, ha] at h
    cases h
  rw [if_neg ha]
  have hwa : AllWF aad := hasBadNull_false.1 (by simpa using ha)
  by_cases hf : f.oneShot = true
  · rw [if_pos hf]
    exact ⟨_, _, _, rfl, by simp, fun _ => rfl, (by intro h; cases h),
      fun h => by subst h; cases hf⟩
  rw [if_neg hf]
  have hl : (xorKs (L.ks alg key nonce) 0 (flat pt) ++
      L.mac alg key nonce (flat aad) (xorKs (L.ks alg key nonce) 0 (flat pt))).length =
      (flat pt).length + 16 := by simp [L.mac_len]
  rw [writeAt_zero _ _ (by rw [hl]; omega), exec_bind_ok, subSize_ok (by rw [hl]; omega),
    exec_bind_ok, subSize_ok (by omega), exec_bind_ok]
  refine ⟨_, _, _, rfl, ?_, fun h => absurd rfl h, ?_, fun _ _ _ _ _ => rfl⟩
  · rw [List.length_append, List.length_drop, hl]; omega
  · intro _
    refine ⟨hn, hwa, hwp, by omega, by rw [hl]; omega, ?_⟩
    rw [hl, Spec.aeadSeal, ← xorKs_zero]

theorem boringDecrypt_spec (L : Lib) (f : EvpFault) (alg : Alg) (key nonce : Bytes)
    (aad ct : List Iovec) (out : Iovec) (hw : AllWF ct) (ho : out.WF) :
    DecSpec L f alg key nonce aad ct out (boringDecrypt L f alg key nonce aad ct out) := by
  have hol : out.bytes.length = out.len := ho.len_eq.symm
  have hk16 : kTagSize = 16 := rfl
  unfold boringDecrypt
  rw [if_neg (by simpa using ho)]
  simp only [hw.totalLen_eq]
  by_cases hn : nonce.length = kNonceSize
  case neg =>
    rw [if_pos hn]
    exact ⟨.invalidArgument, 0, out.bytes, by rw [Iovec.setBytes_bytes ho], hol,
      fun _ => ⟨rfl, Or.inl rfl⟩, (by intro h; cases h), fun _ h => absurd h hn,
      fun _ h => absurd h hn⟩
  rw [if_neg (by simpa using hn), if_neg (by simpa using hasBadNull_false.2 hw)]
  by_cases ht : (flat ct).length < kTagSize
  · rw [if_pos ht]
    simp only [kTagSize] at ht
    refine ⟨.invalidArgument, 0, out.bytes, by rw [Iovec.setBytes_bytes ho], hol,
      fun _ => ⟨rfl, Or.inl rfl⟩, (by intro h; cases h), ?_, ?_⟩
    · rintro _ _ _ _ ⟨p, hp⟩
      have := (aeadOpen_length hp).1
      omega
    · intro _ _ _ _ h; omega
  rw [if_neg ht]
  simp only [kTagSize] at ht
  by_cases hroom : out.bytes.length < (flat ct).length - kTagSize
  · rw [if_pos hroom]
    simp only [kTagSize] at hroom
    exact ⟨.invalidArgument, 0, out.bytes, by rw [Iovec.setBytes_bytes ho], hol,
      fun _ => ⟨rfl, Or.inl rfl⟩, (by intro h; cases h), (fun _ _ _ h => by omega),
      (fun _ _ _ h => by omega)⟩
  rw [if_neg hroom]
  simp only [kTagSize] at hroom
  by_cases ha : hasBadNull aad = true
  · rw [if_pos ha]
    have hc : AllWF aad → False := by
      intro h; rw [← hasBadNull_false, ha] at h; cases h
    exact ⟨.invalidArgument, 0, out.bytes, by rw [Iovec.setBytes_bytes ho], hol,
      fun _ => ⟨rfl, Or.inl rfl⟩, (by intro h; cases h), (fun _ _ h => (hc h).elim),
      (fun _ _ h => (hc h).elim)⟩
  rw [if_neg ha]
  have hwa : AllWF aad := hasBadNull_false.1 (by simpa using ha)
  by_cases hm : L.mac alg key nonce (flat aad) ((flat ct).take ((flat ct).length - 16)) =
      (flat ct).drop ((flat ct).length - 16)
  · by_cases hf : f.oneShot = true
    · rw [if_pos (by simp [hf])]
      exact ⟨_, _, _, rfl, by simpa using hol, fun _ => ⟨rfl, Or.inr (Or.inl (by rw [hol]))⟩,
        (by intro h; cases h), (fun h => by subst h; cases hf),
        (fun h => by subst h; cases hf)⟩
    · rw [if_neg (by simp [hf, hm])]
      rw [writeAt_zero _ _ (by simp; omega), exec_bind_ok, subSize_ok (by simp; omega),
        exec_bind_ok, subSize_ok (by omega), exec_bind_ok]
      refine ⟨_, _, _, rfl, ?_, fun h => absurd rfl h, ?_, fun _ _ _ _ _ => rfl,
        fun _ _ _ _ _ h => absurd rfl h⟩
      · simp; omega
      · intro _
        refine ⟨hn, hwa, Spec.stream (L.ks alg key nonce)
          ((flat ct).take ((flat ct).length - 16)), ?_, ?_, ?_, ?_⟩
        · unfold Spec.aeadOpen
          rw [if_neg (by omega)]
          simp [hm]
        · simp [stream_length]; omega
        · simp [stream_length]; omega
        · simp only [xorKs_zero, kTagSize]
  · rw [if_pos (by simp [hm])]
    refine ⟨_, _, _, rfl, by simpa using hol, fun _ => ⟨rfl, Or.inr (Or.inl (by rw [hol]))⟩,
      (by intro h; cases h), ?_, fun _ _ _ _ _ _ => by rw [hol]⟩
    rintro _ _ _ _ ⟨p, hp⟩
    unfold Spec.aeadOpen at hp
    rw [if_neg (by omega)] at hp
    simp [hm] at hp

theorem Crypter.encrypt_spec (L : Lib) (f : EvpFault) (c : Crypter) (nonce : Bytes)
    (aad pt : List Iovec) (ob : Bytes) (ha : IntLens aad) (hp : IntLens pt) :
    EncSpec L f c.alg c.key nonce aad pt ob (c.encrypt L f nonce aad pt (.buf ob)) := by
  unfold Crypter.encrypt
  split
  · exact boringEncrypt_spec ..
  · exact evpEncrypt_spec _ _ _ _ _ _ _ _ ha hp

theorem Crypter.decrypt_spec (L : Lib) (f : EvpFault) (c : Crypter) (nonce : Bytes)
    (aad ct : List Iovec) (out : Iovec) (ha : IntLens aad) (hc : IntLens ct) (hw : AllWF ct)
    (ho : out.WF) :
    DecSpec L f c.alg c.key nonce aad ct out (c.decrypt L f nonce aad ct out) := by
  unfold Crypter.decrypt
  split
  · exact boringDecrypt_spec _ _ _ _ _ _ _ _ hw ho
  · exact evpDecrypt_spec _ _ _ _ _ _ _ _ ha hc hw ho

theorem stream_stream (s : Nat → UInt8) (b : Bytes) : Spec.stream s (Spec.stream s b) = b := by
  rw [← xorKs_zero, ← xorKs_zero, xorKs_xorKs]

theorem aeadOpen_aeadSeal (L : Lib) (alg key nonce aad pt) :
    Spec.aeadOpen L alg key nonce aad (Spec.aeadSeal L alg key nonce aad pt) = some pt := by
  unfold Spec.aeadOpen Spec.aeadSeal
  simp [L.mac_len, stream_stream]

theorem aeadSeal_length (L : Lib) (alg key nonce aad pt) :
    (Spec.aeadSeal L alg key nonce aad pt).length = pt.length + 16 := by
  simp [Spec.aeadSeal, stream_length, L.mac_len]

end S2A.Aead
