import Verif.Spec.InPlace
import Verif.Lemmas.RecordHist
import Verif.Lemmas.Aead
/-
A call on buffers that share memory does the same as one on buffers of their own.
-/
namespace S2A.InPlace
open Spec (replaced Inside Apart Placed)
open Aead (Ctx kTagSize intBound)

/-! ### The memory -/

theorem replaced_length {m : Bytes} {off : Nat} {w : Bytes} (h : off + w.length ≤ m.length) :
    (replaced m off w).length = m.length := by
  simp only [replaced, List.length_append, List.length_take, List.length_drop]
  omega

theorem replaced_get? {m : Bytes} {off : Nat} {w : Bytes} (h : off + w.length ≤ m.length) (i : Nat) :
    (replaced m off w)[i]? =
      if off ≤ i ∧ i < off + w.length then w[i - off]? else m[i]? := by
  unfold replaced
  rw [List.append_assoc, List.getElem?_append, List.length_take, Nat.min_eq_left (by omega)]
  by_cases h1 : i < off
  · rw [if_pos h1, if_neg (by omega), List.getElem?_take, if_pos h1]
  · rw [if_neg h1, List.getElem?_append]
    by_cases h2 : i < off + w.length
    · rw [if_pos (by omega), if_pos ⟨by omega, h2⟩]
    · rw [if_neg (by omega), if_neg (by omega), List.getElem?_drop]
      congr 1; omega

theorem writeAt_eq {m : Bytes} {off : Nat} {w : Bytes} (h : off + w.length ≤ m.length) :
    writeAt m off w = .ok (replaced m off w) := by
  simp [writeAt, replaced, h]

theorem get_get? (m : Bytes) (off n i : Nat) :
    (get m off n)[i]? = if i < n then m[off + i]? else none := by
  simp [get, List.getElem?_take, List.getElem?_drop]

theorem get_length {m : Bytes} {off n : Nat} (h : off + n ≤ m.length) : (get m off n).length = n := by
  simp [get]; omega

/-- Equal at every address of a region. -/
theorem get_congr {m m' : Bytes} {off n : Nat} (h : ∀ i, off ≤ i → i < off + n → m[i]? = m'[i]?) :
    get m off n = get m' off n := by
  apply List.ext_getElem?
  intro i
  rw [get_get?, get_get?]
  split
  · exact h _ (by omega) (by omega)
  · rfl

theorem get_replaced {m : Bytes} {off : Nat} {w : Bytes} (h : off + w.length ≤ m.length) :
    get (replaced m off w) off w.length = w := by
  apply List.ext_getElem?
  intro i
  rw [get_get?, replaced_get? h]
  split
  · rw [if_pos (by omega)]; congr 1; omega
  · rw [List.getElem?_eq_none (by omega)]

theorem replaced_replaced {m : Bytes} {off : Nat} {w w' : Bytes} (h : off + w.length ≤ m.length)
    (hw : w'.length = w.length) : replaced (replaced m off w) off w' = replaced m off w' := by
  apply List.ext_getElem?
  intro i
  rw [replaced_get? (by rw [replaced_length h]; omega), replaced_get? h, replaced_get? (by omega)]
  by_cases hc : off ≤ i ∧ i < off + w'.length
  · rw [if_pos hc, if_pos hc]
  · rw [if_neg hc, if_neg hc, if_neg (by omega)]

theorem replaced_get {m : Bytes} {off n : Nat} (h : off + n ≤ m.length) :
    replaced m off (get m off n) = m := by
  have hl := get_length h
  apply List.ext_getElem?
  intro i
  rw [replaced_get? (by omega), get_get?]
  split
  · rw [if_pos (by omega)]; congr 1; omega
  · rfl

/-- A write inside the region of the output. -/
theorem writeAt_replaced {m : Bytes} {oo off : Nat} {out w : Bytes} (h : oo + out.length ≤ m.length)
    (hw : off + w.length ≤ out.length) :
    writeAt (replaced m oo out) (oo + off) w = .ok (replaced m oo (replaced out off w)) := by
  rw [writeAt_eq (by rw [replaced_length h]; omega)]
  congr 1
  have hl : (replaced out off w).length = out.length := replaced_length hw
  apply List.ext_getElem?
  intro i
  rw [replaced_get? (by rw [replaced_length h]; omega), replaced_get? h,
    replaced_get? (by omega), replaced_get? hw]
  by_cases h1 : oo + off ≤ i ∧ i < oo + off + w.length
  · rw [if_pos h1, if_pos (by omega), if_pos (by omega)]; congr 1; omega
  · rw [if_neg h1]
    by_cases h2 : oo ≤ i ∧ i < oo + out.length
    · rw [if_pos h2, if_pos (by omega), if_neg (by omega)]
    · rw [if_neg h2, if_neg (by omega)]

/-! ### Buffers -/

theorem view_len {m : Bytes} {v : Ptr} (h : Inside m v) : (v.view m).len = v.len := by
  cases v <;> simp [Ptr.view, Iovec.len, Ptr.len, Inside] at *
  omega

theorem total_view {m : Bytes} {vs : List Ptr} (h : ∀ v ∈ vs, Inside m v) :
    totalLen (vs.map (·.view m)) = (vs.map Ptr.len).sum := by
  unfold totalLen
  rw [List.map_map]
  congr 1
  exact List.map_congr_left fun v hv => view_len (h v hv)

/-- Two memories that are equal where a buffer lies. -/
theorem view_congr {m m' : Bytes} {v : Ptr}
    (h : ∀ off n, v = .mem off n → ∀ i, off ≤ i → i < off + n → m[i]? = m'[i]?) :
    v.view m = v.view m' := by
  cases v with
  | null n => rfl
  | stack d => rfl
  | mem off n => exact congrArg Iovec.buf (get_congr (h off n rfl))

/-- Memories that differ only in what was already written. -/
def Agree (m m' : Bytes) (oo pos : Nat) : Prop := ∀ i, ¬ (oo ≤ i ∧ i < oo + pos) → m[i]? = m'[i]?

theorem placed_view {m m' : Bytes} {oo pos off : Nat} {v : Ptr} {vs : List Ptr}
    (ha : Agree m m' oo off) (hp : Placed 0 0 oo pos (v :: vs)) (ho : off ≤ pos) :
    v.view m = v.view m' := by
  apply view_congr
  rintro a n rfl i h1 h2
  have hp := hp.1
  simp only [Apart] at hp
  apply ha
  omega

theorem placed_views {m m' : Bytes} {oo off : Nat} (ha : Agree m m' oo off) {vs : List Ptr} :
    ∀ {pos : Nat}, Placed 0 0 oo pos vs → off ≤ pos → vs.map (·.view m) = vs.map (·.view m') := by
  induction vs with
  | nil => intros; rfl
  | cons v vs ih =>
    intro pos hp ho
    rw [List.map_cons, List.map_cons, placed_view ha hp ho, ih hp.2 (by omega)]

theorem placed_clash {oo pos n : Nat} {v : Ptr} {vs : List Ptr} (hp : Placed 0 0 oo pos (v :: vs))
    (hn : n ≤ v.len) (h0 : v.len ≠ 0) : v.clashes n (oo + pos) = false := by
  cases v with
  | null _ => rfl
  | stack _ => rfl
  | mem a k =>
    have hp := hp.1
    simp only [Apart] at hp
    simp only [Ptr.len] at hn h0
    simp only [Ptr.clashes, Bool.and_eq_false_iff, decide_eq_false_iff_not]
    omega

/-! ### The loops of the AEAD crypters -/

theorem writeAt_length {b : Bytes} {off : Nat} {w b' : Bytes} (h : writeAt b off w = .ok b') :
    b'.length = b.length := by
  unfold writeAt at h
  split at h
  · simp at h; subst h; simp; omega
  · simp at h

theorem subSize_ok {a b c : Nat} (h : subSize a b = .ok c) : b ≤ a ∧ c = a - b := by
  unfold subSize at h
  split at h
  · simp at h; exact ⟨by assumption, h.symm⟩
  · simp at h

theorem encLoop_length {L : Lib} {f : EvpFault} {vs : List Iovec} :
    ∀ {k : Nat} {c : Ctx} {out : Bytes} {off rem : Nat} {r},
      Aead.encLoop L f k c out off rem vs = .ok r → r.1.length = out.length ∧
        ∀ c' off' rem', r.2 = .ok (c', off', rem') → off' + rem' = off + rem := by
  induction vs with
  | nil =>
    intro k c out off rem r h
    simp [Aead.encLoop] at h; subst h
    exact ⟨rfl, fun _ _ _ h => by simp at h; omega⟩
  | cons v vs ih =>
    intro k c out off rem r h
    rw [Aead.encLoop.eq_def] at h
    simp only at h
    split at h
    · exact ih h
    · split at h
      · simp at h; subst h; simp
      · split at h
        · simp at h; subst h; simp
        · split at h
          · simp at h
          · split at h
            · simp at h; subst h; simp
            · simp only [HalfConn.exec_bind_eq_ok] at h
              obtain ⟨o, ho, rem', hr, h⟩ := h
              obtain ⟨h1, h2⟩ := ih h
              obtain ⟨h3, h4⟩ := subSize_ok hr
              refine ⟨by rw [h1, writeAt_length ho], fun c' off' rem' h => ?_⟩
              have := h2 _ _ _ h
              omega

theorem agree_write {m : Bytes} {oo off : Nat} {out w : Bytes} (h : oo + out.length ≤ m.length)
    (hw : off + w.length ≤ out.length) (ha : Agree (replaced m oo out) m oo off) :
    Agree (replaced m oo (replaced out off w)) m oo (off + w.length) := by
  intro i hi
  have hl := replaced_length hw
  rw [replaced_get? (by omega), replaced_get? hw]
  have := ha i (by omega)
  rw [replaced_get? h] at this
  by_cases hc : oo ≤ i ∧ i < oo + out.length
  · rw [if_pos hc] at this
    rw [if_pos (by omega), if_neg (by omega)]; exact this
  · rw [if_neg (by omega)]

theorem encLoop_same (L : Lib) (f : EvpFault) (m : Bytes) (oo on : Nat) (hm : oo + on ≤ m.length)
    (vs : List Ptr) :
    ∀ (k : Nat) (c : Ctx) (out : Bytes) (off rem : Nat), out.length = on → off + rem = on →
      Agree (replaced m oo out) m oo off → (∀ v ∈ vs, Inside m v) → Placed 0 0 oo off vs →
      encLoop L f k c (replaced m oo out) (oo + off) rem vs =
        (Aead.encLoop L f k c out off rem (vs.map (·.view m))).map fun r =>
          (replaced m oo r.1, r.2.map fun x => (x.1, oo + x.2.1, x.2.2)) := by
  induction vs with
  | nil => intros; rfl
  | cons v vs ih =>
    intro k c out off rem hl hr ha hi hp
    have hv := hi v (by simp)
    have hvs : ∀ w ∈ vs, Inside m w := fun w hw => hi w (by simp [hw])
    have e : v.view (replaced m oo out) = v.view m := placed_view ha hp (Nat.le_refl _)
    have hlen := view_len hv
    rw [encLoop, List.map_cons, Aead.encLoop.eq_def]
    simp only [hlen, e]
    by_cases h0 : v.len = 0
    · rw [if_pos h0, if_pos h0]
      refine ih _ _ _ _ _ hl hr ha hvs ?_
      have := hp.2; rwa [h0] at this
    · rw [if_neg h0, if_neg h0]
      cases hd : v.view m with
      | null n => rfl
      | buf d =>
        have hdl : d.length = v.len := by rw [hd] at hlen; exact hlen
        simp only
        by_cases h1 : rem < d.length
        · rw [if_pos h1, if_pos h1]; rfl
        rw [if_neg h1, if_neg h1]
        by_cases h2 : intBound ≤ d.length
        · rw [if_pos h2, if_pos h2]; rfl
        rw [if_neg h2, if_neg h2]
        by_cases h3 : f.update k = true
        · rw [if_pos h3, if_pos h3]; rfl
        rw [if_neg h3, if_neg h3, placed_clash hp (Nat.le_of_eq hdl) h0, if_neg (by simp)]
        have hol : (c.encUpdate L d).1.length = d.length := by simp [Ctx.encUpdate]
        rw [writeAt_replaced (by omega) (by omega), writeAt_eq (by omega)]
        simp only [bind, Except.bind]
        cases hs : subSize rem (c.encUpdate L d).1.length with
        | error e => rfl
        | ok rem' =>
          simp only
          have hrem : rem' = rem - d.length := by
            unfold subSize at hs; rw [if_pos (by omega)] at hs; cases hs; omega
          rw [Nat.add_assoc]
          apply ih
          · rw [replaced_length (by omega)]; exact hl
          · omega
          · exact agree_write (by omega) (by omega) ha
          · exact hvs
          · have := hp.2; rwa [← hdl, ← hol] at this

/-- The state of the decryption loop with the bytes that the pointers point to. -/
def settle (r : Bytes × Except StatusCode DecState) : Bytes × Except StatusCode Aead.DecState :=
  (r.1, r.2.map fun s =>
    ⟨s.ctx, (s.cur.view r.1).bytes, s.total, s.rem, s.rest.map (·.view r.1)⟩)

theorem decLoop_length {L : Lib} {f : EvpFault} {vs : List Iovec} :
    ∀ {k : Nat} {c : Ctx} {out : Bytes} {off rem total : Nat} {cur r},
      Aead.decLoop L f k c out off rem total cur vs = .ok r → r.1.length = out.length := by
  induction vs with
  | nil => intro k c out off rem total cur r h; simp [Aead.decLoop] at h; subst h; rfl
  | cons v vs ih =>
    intro k c out off rem total cur r h
    rw [Aead.decLoop.eq_def] at h
    simp only at h
    split at h
    · simp at h; subst h; rfl
    · split at h
      · exact ih h
      · split at h
        · simp at h; subst h; simp [zeros]
        · rename_i d _
          generalize (if d.length > total - kTagSize then total - kTagSize else d.length) = btw at h
          split at h
          · simp at h; subst h; rfl
          · split at h
            · simp at h
            · split at h
              · simp at h; subst h; simp [zeros]
              · simp only [HalfConn.exec_bind_eq_ok] at h
                obtain ⟨o, ho, _, _, _, _, h⟩ := h
                rw [ih h, writeAt_length ho]

theorem clear_replaced {m : Bytes} {oo : Nat} {out : Bytes} (h : oo + out.length ≤ m.length) :
    clear (replaced m oo out) oo out.length = .ok (replaced m oo (zeros out.length)) := by
  have hz : (zeros out.length).length = out.length := by simp [zeros]
  unfold clear
  rw [writeAt_eq (by rw [replaced_length h]; omega), replaced_replaced h hz]

theorem decLoop_same (L : Lib) (f : EvpFault) (m : Bytes) (oo on : Nat) (hm : oo + on ≤ m.length)
    (vs : List Ptr) :
    ∀ (k : Nat) (c : Ctx) (out : Bytes) (off rem total : Nat) (cur : Ptr) (pos : Nat),
      out.length = on → off + rem = on → Agree (replaced m oo out) m oo off →
      (∀ v ∈ vs, Inside m v) → Placed 0 0 oo pos vs → off ≤ pos → (kTagSize < total → off = pos) →
      (decLoop L f oo on k c (replaced m oo out) (oo + off) rem total cur vs).map settle =
        (Aead.decLoop L f k c out off rem total (cur.view (replaced m oo out)).bytes
          (vs.map (·.view m))).map fun r => (replaced m oo r.1, r.2) := by
  induction vs with
  | nil => intros; rfl
  | cons v vs ih =>
    intro k c out off rem total cur pos hl hr ha hi hp ho ht
    have hv := hi v (by simp)
    have hvs : ∀ w ∈ vs, Inside m w := fun w hw => hi w (by simp [hw])
    have e : v.view (replaced m oo out) = v.view m := placed_view ha hp ho
    have hlen := view_len hv
    rw [decLoop, List.map_cons, Aead.decLoop.eq_def]
    simp only [hlen, e]
    by_cases h0 : total ≤ kTagSize
    · rw [if_pos h0, if_pos h0]
      simp only [Except.map, settle, Except.ok.injEq, Prod.mk.injEq, true_and]
      rw [placed_views ha hp ho, List.map_cons]
    rw [if_neg h0, if_neg h0]
    have hpos : off = pos := ht (by omega)
    subst hpos
    by_cases h1 : v.len = 0
    · rw [if_pos h1, if_pos h1]
      refine ih _ _ _ _ _ _ (.stack []) off hl hr ha hvs ?_ (Nat.le_refl _) (fun _ => rfl)
      have := hp.2; rwa [h1] at this
    rw [if_neg h1, if_neg h1]
    cases hd : v.view m with
    | null n =>
      simp only
      rw [← hl, clear_replaced (by omega)]
      rfl
    | buf d =>
      have hdl : d.length = v.len := by rw [hd] at hlen; exact hlen
      simp only
      generalize hb : (if d.length > total - kTagSize then total - kTagSize else d.length) = btw
      have hb1 : btw ≤ d.length := by subst hb; split <;> omega
      have hb2 : btw < d.length → total = btw + kTagSize := by subst hb; split <;> omega
      by_cases h2 : rem < btw
      · rw [if_pos h2, if_pos h2]; rfl
      rw [if_neg h2, if_neg h2]
      by_cases h3 : intBound ≤ btw
      · rw [if_pos h3, if_pos h3]; rfl
      rw [if_neg h3, if_neg h3]
      by_cases h4 : f.update k = true
      · rw [if_pos h4, if_pos h4, ← hl, clear_replaced (by omega)]; rfl
      rw [if_neg h4, if_neg h4, placed_clash hp (by omega) h1, if_neg (by simp)]
      have hol : (c.decUpdate L (d.take btw)).1.length = btw := by
        simp [Ctx.decUpdate]; omega
      rw [writeAt_replaced (by omega) (by omega), writeAt_eq (by omega)]
      simp only [bind, Except.bind]
      cases hs : subSize rem (c.decUpdate L (d.take btw)).1.length with
      | error e => rfl
      | ok rem' =>
        obtain ⟨_, hr'⟩ := subSize_ok hs
        simp only
        cases hs2 : subSize total (c.decUpdate L (d.take btw)).1.length with
        | error e => rfl
        | ok total' =>
          obtain ⟨_, ht'⟩ := subSize_ok hs2
          have ha' := agree_write (w := (c.decUpdate L (d.take btw)).1)
            (by omega : oo + out.length ≤ m.length) (by omega) ha
          have hcur : ∃ p, v.slice btw (v.len - btw) = .ok p ∧
              (p.view (replaced m oo (replaced out off (c.decUpdate L (d.take btw)).1))).bytes
                = d.drop btw := by
            cases v with
            | null n => simp [Ptr.view] at hd
            | stack b =>
              simp only [Ptr.view, Iovec.buf.injEq] at hd
              subst hd
              refine ⟨_, by simp only [Ptr.slice]; rw [if_pos (by simp only [Ptr.len]; omega)], ?_⟩
              simp only [Ptr.view, Iovec.bytes, Ptr.len]
              rw [List.take_of_length_le (by simp)]
            | mem a n =>
              refine ⟨_, by simp only [Ptr.slice]; rw [if_pos (by simp only [Ptr.len] at *; omega)], ?_⟩
              simp only [Ptr.len] at hdl ⊢
              have hp1 := hp.1
              simp only [Apart] at hp1
              have : (Ptr.mem (a + btw) (n - btw)).view
                  (replaced m oo (replaced out off (c.decUpdate L (d.take btw)).1)) =
                  (Ptr.mem (a + btw) (n - btw)).view m := by
                apply view_congr
                intro a' n' h' i hi1 hi2
                cases h'
                apply ha'
                simp only [Ptr.len] at h1
                omega
              rw [this]
              simp only [Ptr.view, Iovec.buf.injEq] at hd
              simp only [Ptr.view, Iovec.bytes]
              rw [← hd, List.drop_take, List.drop_drop]
          obtain ⟨p, hp1, hp2⟩ := hcur
          rw [hp1]
          simp only
          rw [Nat.add_assoc, ← hp2]
          apply ih _ _ _ _ _ _ _ (off + v.len)
          · rw [replaced_length (by omega)]; exact hl
          · omega
          · exact ha'
          · exact hvs
          · exact hp.2
          · omega
          · intro h; omega

/-! ### The AEAD crypters -/

/-- What a crypter did to its own output buffer, done to the memory. -/
def back (m : Bytes) (oo : Nat) (e : Exec Aead.Result) : Exec (Bytes × StatusCode × Nat) :=
  e.map fun r => (replaced m oo r.out.bytes, r.status, r.written)

theorem bytes_buf (d : Bytes) : (Iovec.buf d).bytes = d := rfl

theorem evpEncrypt_same (L : Lib) (f : EvpFault) (alg : Alg) (key nonce m : Bytes)
    (aad pt : List Ptr) (oo on : Nat) (hm : oo + on ≤ m.length) (hi : ∀ v ∈ pt, Inside m v)
    (hp : Placed 0 0 oo 0 pt) :
    evpEncrypt L f alg key nonce m aad pt oo on =
      back m oo (Aead.evpEncrypt L f alg key nonce (aad.map (·.view m)) (pt.map (·.view m))
        (.buf (get m oo on))) := by
  have hg := get_length hm
  have hr := replaced_get hm
  unfold evpEncrypt Aead.evpEncrypt
  simp only
  by_cases h1 : nonce.length ≠ Aead.kNonceSize
  · rw [if_pos h1, if_pos h1]; simp [back, Except.map, Iovec.bytes, hr]
  rw [if_neg h1, if_neg h1]
  by_cases h2 : f.init = true
  · rw [if_pos h2, if_pos h2]; simp [back, Except.map, Iovec.bytes, hr]
  rw [if_neg h2, if_neg h2]
  cases hA : Aead.setAad f 0 ⟨alg, key, nonce, [], []⟩ (aad.map (·.view m)) with
  | error e => rfl
  | ok x =>
    cases x with
    | error e => simp [back, Except.map, Iovec.bytes, hr, bind, Except.bind, pure, Except.pure]
    | ok c =>
      have hs := encLoop_same L f m oo on hm pt 0 c (get m oo on) 0 on hg (by omega)
        (by rw [hr]; intro i _; rfl) hi hp
      rw [hr, Nat.add_zero] at hs
      simp only [bind, Except.bind, hs, hg]
      cases hE : Aead.encLoop L f 0 c (get m oo on) 0 on (pt.map (·.view m)) with
      | error e => rfl
      | ok r =>
        obtain ⟨h3, h4⟩ := encLoop_length hE
        rw [hg] at h3
        obtain ⟨ob, x⟩ := r
        cases x with
        | error e => rfl
        | ok x =>
          obtain ⟨c', off, rem⟩ := x
          have h4 := h4 _ _ _ rfl
          simp only at h3
          simp only [Except.map]
          by_cases h5 : f.final = true
          · rw [if_pos h5, if_pos h5]; rfl
          rw [if_neg h5, if_neg h5]
          by_cases h6 : rem < kTagSize
          · rw [if_pos h6, if_pos h6]; rfl
          rw [if_neg h6, if_neg h6]
          by_cases h7 : f.tag = true
          · rw [if_pos h7, if_pos h7]; rfl
          rw [if_neg h7, if_neg h7]
          have ht : (c'.tag L).length = kTagSize := by simp [Ctx.tag, L.mac_len]
          rw [writeAt_replaced (by omega) (by omega), writeAt_eq (by omega)]
          simp only
          cases subSize rem kTagSize with
          | error e => rfl
          | ok rem' =>
            simp only
            cases subSize on rem' with
            | error e => rfl
            | ok w => rfl

theorem evpDecrypt_same (L : Lib) (f : EvpFault) (alg : Alg) (key nonce m : Bytes)
    (aad ct : List Ptr) (oo on : Nat) (hm : oo + on ≤ m.length) (hi : ∀ v ∈ ct, Inside m v)
    (hp : Placed 0 0 oo 0 ct) :
    evpDecrypt L f alg key nonce m aad ct oo on =
      back m oo (Aead.evpDecrypt L f alg key nonce (aad.map (·.view m)) (ct.map (·.view m))
        (.buf (get m oo on))) := by
  have hg := get_length hm
  have hr := replaced_get hm
  unfold evpDecrypt Aead.evpDecrypt
  rw [if_neg (show ¬ ¬ (Iovec.buf (get m oo on)).WF by simp [Iovec.WF])]
  simp only [total_view hi]
  generalize (ct.map Ptr.len).sum = total
  by_cases h0 : total < kTagSize
  · rw [if_pos h0, if_pos h0]; simp [back, Except.map, Iovec.bytes, hr]
  rw [if_neg h0, if_neg h0]
  by_cases h1 : nonce.length ≠ Aead.kNonceSize
  · rw [if_pos h1, if_pos h1]; simp [back, Except.map, Iovec.bytes, hr]
  rw [if_neg h1, if_neg h1]
  by_cases h2 : f.init = true
  · rw [if_pos h2, if_pos h2]; simp [back, Except.map, Iovec.bytes, hr]
  rw [if_neg h2, if_neg h2]
  cases hA : Aead.setAad f 0 ⟨alg, key, nonce, [], []⟩ (aad.map (·.view m)) with
  | error e => rfl
  | ok x =>
    cases x with
    | error e => simp [back, Except.map, Iovec.bytes, hr, bind, Except.bind, pure, Except.pure]
    | ok c =>
      have hs := decLoop_same L f m oo on hm ct 0 c (get m oo on) 0 on total (.stack []) 0 hg
        (by omega) (by rw [hr]; intro i _; rfl) hi hp (Nat.le_refl _) (fun _ => rfl)
      rw [hr, Nat.add_zero] at hs
      rw [show ((Ptr.stack []).view m).bytes = ([] : Bytes) from rfl] at hs
      simp only [bind, Except.bind, bytes_buf, hg]
      cases hE : Aead.decLoop L f 0 c (get m oo on) 0 on total [] (ct.map (·.view m)) with
      | error e =>
        rw [hE] at hs
        cases hM : decLoop L f oo on 0 c m oo on total (.stack []) ct with
        | error e' => rw [hM] at hs; cases hs; rfl
        | ok r => rw [hM] at hs; cases hs
      | ok r =>
        rw [hE] at hs
        have h3 := decLoop_length hE
        rw [hg] at h3
        cases hM : decLoop L f oo on 0 c m oo on total (.stack []) ct with
        | error e' => rw [hM] at hs; cases hs
        | ok r' =>
          rw [hM] at hs
          obtain ⟨ob, x⟩ := r
          obtain ⟨m', x'⟩ := r'
          simp only [Except.map, settle, Except.ok.injEq, Prod.mk.injEq] at hs
          obtain ⟨rfl, hx⟩ := hs
          simp only at h3
          have hc := clear_replaced (m := m) (oo := oo) (out := ob) (by omega)
          rw [h3] at hc
          cases x' with
          | error e => cases hx; rfl
          | ok s =>
            cases hx
            simp only [hc]
            by_cases h4 : s.total > kTagSize
            · rw [if_pos h4, if_pos h4, h3]; rfl
            rw [if_neg h4, if_neg h4]
            cases Aead.tagAppend [] (s.cur.view (replaced m oo ob)).bytes with
            | error e => rfl
            | ok tag =>
              simp only
              cases Aead.gatherTag tag (s.rest.map (·.view (replaced m oo ob))) with
              | error e => rfl
              | ok tag =>
                simp only
                by_cases h5 : tag.length ≠ kTagSize
                · rw [if_pos h5, if_pos h5]; rfl
                rw [if_neg h5, if_neg h5]
                by_cases h6 : f.tag = true
                · rw [if_pos h6, if_pos h6, h3]; rfl
                rw [if_neg h6, if_neg h6]
                by_cases h7 : (f.final || decide (s.ctx.tag L ≠ tag)) = true
                · rw [if_pos h7, if_pos h7, h3]; rfl
                rw [if_neg h7, if_neg h7]
                cases subSize on s.rem with
                | error e => rfl
                | ok w => rfl

theorem boringEncrypt_length {L : Lib} {f : EvpFault} {alg : Alg} {key nonce : Bytes}
    {aad pt : List Iovec} {ob : Bytes} {r : Aead.Result}
    (h : Aead.boringEncrypt L f alg key nonce aad pt (.buf ob) = .ok r) :
    r.out.bytes.length = ob.length := by
  unfold Aead.boringEncrypt at h
  simp only at h
  repeat' split at h
  all_goals first
    | (cases h; simp [Iovec.bytes, zeros]; done)
    | skip
  simp only [HalfConn.exec_bind_eq_ok] at h
  obtain ⟨o, ho, _, _, _, _, h⟩ := h
  cases h
  exact writeAt_length ho

theorem boringDecrypt_length {L : Lib} {f : EvpFault} {alg : Alg} {key nonce : Bytes}
    {aad ct : List Iovec} {ob : Bytes} {r : Aead.Result}
    (h : Aead.boringDecrypt L f alg key nonce aad ct (.buf ob) = .ok r) :
    r.out.bytes.length = ob.length := by
  unfold Aead.boringDecrypt at h
  rw [if_neg (by simp [Iovec.WF])] at h
  simp only at h
  repeat' split at h
  all_goals first
    | (cases h; simp [Iovec.bytes, Iovec.setBytes, zeros]; done)
    | skip
  simp only [HalfConn.exec_bind_eq_ok] at h
  obtain ⟨o, ho, _, _, _, _, h⟩ := h
  cases h
  exact writeAt_length ho

theorem crypterEncrypt_same (L : Lib) (f : EvpFault) (c : Aead.Crypter) (nonce m : Bytes)
    (aad pt : List Ptr) (oo on : Nat) (hm : oo + on ≤ m.length) (hi : ∀ v ∈ pt, Inside m v)
    (hp : Placed 0 0 oo 0 pt) :
    crypterEncrypt L f c nonce m aad pt oo on =
      back m oo (c.encrypt L f nonce (aad.map (·.view m)) (pt.map (·.view m))
        (.buf (get m oo on))) := by
  unfold crypterEncrypt Aead.Crypter.encrypt
  split
  · unfold boringEncrypt
    cases h : Aead.boringEncrypt L f c.alg c.key nonce (aad.map (·.view m)) (pt.map (·.view m))
        (.buf (get m oo on)) with
    | error e => rfl
    | ok r =>
      have := boringEncrypt_length h
      rw [get_length hm] at this
      simp only [bind, Except.bind, writeAt_eq (by omega : oo + r.out.bytes.length ≤ m.length)]
      rfl
  · exact evpEncrypt_same L f _ _ _ m aad pt oo on hm hi hp

theorem crypterDecrypt_same (L : Lib) (f : EvpFault) (c : Aead.Crypter) (nonce m : Bytes)
    (aad ct : List Ptr) (oo on : Nat) (hm : oo + on ≤ m.length) (hi : ∀ v ∈ ct, Inside m v)
    (hp : Placed 0 0 oo 0 ct) :
    crypterDecrypt L f c nonce m aad ct oo on =
      back m oo (c.decrypt L f nonce (aad.map (·.view m)) (ct.map (·.view m))
        (.buf (get m oo on))) := by
  unfold crypterDecrypt Aead.Crypter.decrypt
  split
  · unfold boringDecrypt
    cases h : Aead.boringDecrypt L f c.alg c.key nonce (aad.map (·.view m)) (ct.map (·.view m))
        (.buf (get m oo on)) with
    | error e => rfl
    | ok r =>
      have := boringDecrypt_length h
      rw [get_length hm] at this
      simp only [bind, Except.bind, writeAt_eq (by omega : oo + r.out.bytes.length ≤ m.length)]
      rfl
  · exact evpDecrypt_same L f _ _ _ m aad ct oo on hm hi hp

end S2A.InPlace
