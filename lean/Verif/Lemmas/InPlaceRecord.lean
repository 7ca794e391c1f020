import Verif.Lemmas.InPlace
/-
The record layer on buffers that share memory.
-/
namespace S2A.InPlace
open Spec (replaced Inside Apart Placed)
open Aead (Ctx kTagSize intBound)

/-- What an `Encrypt` leaves of the output buffer: its length, and what lies behind the bytes it
reports as written. -/
structure Kept (ob : Bytes) (r : Aead.Result) : Prop where
  len : r.out.bytes.length = ob.length
  tail : r.status = .ok → ∀ i, r.written ≤ i → r.out.bytes[i]? = ob[i]?

theorem writeAt_ok {b : Bytes} {off : Nat} {w b' : Bytes} (h : writeAt b off w = .ok b') :
    off + w.length ≤ b.length ∧ b' = replaced b off w := by
  unfold writeAt at h
  split at h
  · rename_i hb
    cases h
    exact ⟨hb, rfl⟩
  · simp at h

theorem encLoop_tail {L : Lib} {f : EvpFault} {vs : List Iovec} :
    ∀ {k : Nat} {c : Ctx} {out : Bytes} {off rem : Nat} {o c' off' rem'},
      Aead.encLoop L f k c out off rem vs = .ok (o, .ok (c', off', rem')) →
      off ≤ off' ∧ ∀ i, off' ≤ i → o[i]? = out[i]? := by
  induction vs with
  | nil =>
    intro k c out off rem o c' off' rem' h
    simp [Aead.encLoop] at h
    obtain ⟨rfl, _, rfl, _⟩ := h
    exact ⟨Nat.le_refl _, fun _ _ => rfl⟩
  | cons v vs ih =>
    intro k c out off rem o c' off' rem' h
    rw [Aead.encLoop.eq_def] at h
    simp only at h
    split at h
    · exact ih h
    · split at h
      · simp at h
      · split at h
        · simp at h
        · split at h
          · simp at h
          · split at h
            · simp at h
            · simp only [HalfConn.exec_bind_eq_ok] at h
              obtain ⟨o, ho, rem', hr, h⟩ := h
              obtain ⟨h1, h2⟩ := ih h
              refine ⟨by omega, fun i hi => ?_⟩
              rw [h2 i hi]
              obtain ⟨hb, rfl⟩ := writeAt_ok ho
              rw [replaced_get? hb, if_neg (by omega)]

theorem encLoop_not_ok {L : Lib} {f : EvpFault} {vs : List Iovec} :
    ∀ {k : Nat} {c : Ctx} {out : Bytes} {off rem : Nat} {o},
      Aead.encLoop L f k c out off rem vs ≠ .ok (o, .error .ok) := by
  induction vs with
  | nil => intro k c out off rem o h; simp [Aead.encLoop] at h
  | cons v vs ih =>
    intro k c out off rem o h
    rw [Aead.encLoop.eq_def] at h
    simp only at h
    split at h
    · exact ih h
    · split at h
      · simp at h
      · split at h
        · simp at h
        · split at h
          · simp at h
          · split at h
            · simp at h
            · simp only [HalfConn.exec_bind_eq_ok] at h
              obtain ⟨_, _, _, _, h⟩ := h
              exact ih h

theorem encrypt_kept {L : Lib} {f : EvpFault} {c : Aead.Crypter} {nonce : Bytes}
    {aad pt : List Iovec} {ob : Bytes} {r : Aead.Result}
    (h : c.encrypt L f nonce aad pt (.buf ob) = .ok r) : Kept ob r := by
  unfold Aead.Crypter.encrypt at h
  split at h
  · refine ⟨boringEncrypt_length h, ?_⟩
    unfold Aead.boringEncrypt at h
    simp only at h
    repeat' split at h
    all_goals first
      | (cases h; intro h; cases h; done)
      | skip
    simp only [HalfConn.exec_bind_eq_ok] at h
    obtain ⟨o, ho, rest, h1, w, h2, h⟩ := h
    cases h
    intro _ i hi
    obtain ⟨h3, h4⟩ := subSize_ok h1
    obtain ⟨h5, h6⟩ := subSize_ok h2
    rw [writeAt_eq (by omega)] at ho
    cases ho
    simp only [Iovec.bytes] at hi ⊢
    rw [replaced_get? (by omega), if_neg (by omega)]
  · unfold Aead.evpEncrypt at h
    simp only at h
    split at h
    · cases h; exact ⟨rfl, fun h => by cases h⟩
    split at h
    · cases h; exact ⟨rfl, fun h => by cases h⟩
    simp only [HalfConn.exec_bind_eq_ok] at h
    obtain ⟨a, ha, h⟩ := h
    cases a with
    | error e =>
      cases h
      refine ⟨rfl, fun _ _ _ => rfl⟩
    | ok c' =>
      simp only [HalfConn.exec_bind_eq_ok] at h
      obtain ⟨⟨o, x⟩, hE, h⟩ := h
      obtain ⟨h1, h2⟩ := encLoop_length hE
      cases x with
      | error e =>
        cases h
        refine ⟨h1, ?_⟩
        intro he
        exfalso
        simp only at he
        subst he
        exact encLoop_not_ok hE
      | ok x =>
        obtain ⟨c2, off, rem⟩ := x
        obtain ⟨_, h3⟩ := encLoop_tail hE
        have h2 := h2 _ _ _ rfl
        simp only at h h1
        split at h
        · cases h; exact ⟨h1, fun h => by cases h⟩
        split at h
        · cases h; exact ⟨h1, fun h => by cases h⟩
        split at h
        · cases h; exact ⟨h1, fun h => by cases h⟩
        simp only [HalfConn.exec_bind_eq_ok] at h
        obtain ⟨o', ho, rest, h4, w, h5, h⟩ := h
        cases h
        refine ⟨by simp only [Iovec.bytes]; rw [writeAt_length ho, h1], ?_⟩
        intro _ i hi
        have ht : (c2.tag L).length = kTagSize := by simp [Ctx.tag, L.mac_len]
        obtain ⟨h6, h7⟩ := subSize_ok h4
        obtain ⟨h8, h9⟩ := subSize_ok h5
        rw [writeAt_eq (by omega)] at ho
        cases ho
        simp only [Iovec.bytes] at hi ⊢
        rw [replaced_get? (by omega), if_neg (by omega), h3 i (by omega)]

theorem halfEncrypt_kept {L : Lib} {f : EvpFault} {hc hc' : HalfConn} {aad pt : List Iovec}
    {ob : Bytes} {call} {r : Aead.Result}
    (h : hc.encrypt L f aad pt (.buf ob) = .ok (hc', call, r)) : Kept ob r := by
  unfold HalfConn.encrypt at h
  split at h
  · cases h; exact ⟨rfl, fun h => by cases h⟩
  · simp only [HalfConn.exec_bind_eq_ok] at h
    obtain ⟨⟨n, h2⟩, _, r', hr, h⟩ := h
    cases h
    exact encrypt_kept hr

theorem halfEncrypt_same (L : Lib) (f : EvpFault) (hc : HalfConn) (m : Bytes)
    (aad pt : List Ptr) (oo on : Nat) (hm : oo + on ≤ m.length) (hi : ∀ v ∈ pt, Inside m v)
    (hp : Placed 0 0 oo 0 pt) :
    halfEncrypt L f hc m aad pt oo on =
      (hc.encrypt L f (aad.map (·.view m)) (pt.map (·.view m)) (.buf (get m oo on))).map fun x =>
        (x.1, x.2.1, replaced m oo x.2.2.out.bytes, x.2.2.status, x.2.2.written) := by
  unfold halfEncrypt HalfConn.encrypt
  split
  · simp [Except.map, bytes_buf, replaced_get hm]
  · cases hc.nonceMask with
    | error e => rfl
    | ok x =>
      simp only [bind, Except.bind, crypterEncrypt_same L f hc.aead _ m aad pt oo on hm hi hp]
      cases hc.aead.encrypt L f x.1 (aad.map (·.view m)) (pt.map (·.view m))
        (.buf (get m oo on)) with
      | error e => rfl
      | ok r => rfl

theorem halfDecrypt_same (L : Lib) (f : EvpFault) (hc : HalfConn) (m : Bytes)
    (aad ct : List Ptr) (oo on : Nat) (hm : oo + on ≤ m.length) (hi : ∀ v ∈ ct, Inside m v)
    (hp : Placed 0 0 oo 0 ct) :
    halfDecrypt L f hc m aad ct oo on =
      (hc.decrypt L f (aad.map (·.view m)) (ct.map (·.view m)) (.buf (get m oo on))).map fun x =>
        (x.1, x.2.1, replaced m oo x.2.2.out.bytes, x.2.2.status, x.2.2.written) := by
  unfold halfDecrypt HalfConn.decrypt
  split
  · simp [Except.map, bytes_buf, replaced_get hm]
  · cases hc.nonceMask with
    | error e => rfl
    | ok x =>
      simp only [bind, Except.bind, crypterDecrypt_same L f hc.aead _ m aad ct oo on hm hi hp]
      cases hc.aead.decrypt L f x.1 (aad.map (·.view m)) (ct.map (·.view m))
        (.buf (get m oo on)) with
      | error e => rfl
      | ok r => rfl

/-! ### `S2ACrypter` -/

theorem view_stack (m d : Bytes) : (Ptr.stack d).view m = .buf d := rfl

theorem placed_payload {ro : Nat} {t : UInt8} {pt : List Ptr} :
    ∀ {pos : Nat}, Placed 0 5 ro pos pt → Placed 0 0 (ro + 5) pos (pt ++ [.stack [t]]) := by
  induction pt with
  | nil => intro pos _; exact ⟨trivial, trivial⟩
  | cons v vs ih =>
    intro pos hp
    refine ⟨?_, ih hp.2⟩
    cases v with
    | null n => trivial
    | stack d => trivial
    | mem a n =>
      have hp := hp.1
      simp only [Apart] at hp ⊢
      omega

/-- The header of the record does not touch the plaintext. -/
theorem placed_header {m : Bytes} {ro : Nat} {w : Bytes} (hw : w.length = 5)
    (hm : ro + w.length ≤ m.length) {pt : List Ptr} :
    ∀ {pos : Nat}, Placed 0 5 ro pos pt →
      pt.map (·.view (replaced m ro w)) = pt.map (·.view m) := by
  induction pt with
  | nil => intros; rfl
  | cons v vs ih =>
    intro pos hp
    rw [List.map_cons, List.map_cons, ih hp.2]
    congr 1
    apply view_congr
    rintro a n rfl i h1 h2
    have hp := hp.1
    simp only [Apart] at hp
    rw [replaced_get? hm, if_neg (by omega)]

theorem inside_replaced {m : Bytes} {off : Nat} {w : Bytes} (h : off + w.length ≤ m.length)
    {v : Ptr} (hv : Inside m v) : Inside (replaced m off w) v := by
  cases v <;> simp only [Inside] at *
  rw [replaced_length h]; exact hv

theorem headerBytes_length (n : Nat) : (Record.headerBytes n).length = 5 := rfl

theorem get_sub {m : Bytes} {ro : Nat} {rb : Bytes} (hm : ro + rb.length ≤ m.length) (a n : Nat)
    (h : a + n ≤ rb.length) : get (replaced m ro rb) (ro + a) n = get rb a n := by
  apply List.ext_getElem?
  intro i
  rw [get_get?, get_get?, replaced_get? hm]
  split
  · rw [if_pos (by omega)]; congr 1; omega
  · rfl

theorem replaced_sub {m : Bytes} {ro : Nat} {rb w : Bytes} {a : Nat}
    (hm : ro + rb.length ≤ m.length) (h : a + w.length = rb.length) :
    replaced (replaced m ro rb) (ro + a) w = replaced m ro (rb.take a ++ w) := by
  have := writeAt_replaced hm (Nat.le_of_eq h)
  rw [writeAt_eq (by rw [replaced_length hm]; omega)] at this
  rw [Except.ok.inj this]
  congr 1
  simp [replaced, h]

/-- What a `Protect` leaves of the output buffer. -/
structure KeptRecord (rb : Bytes) (r : Record.Result) : Prop where
  buf : r.out = .buf r.out.bytes
  len : r.out.bytes.length = rb.length
  tail : r.code = .ok → ∀ i, r.written ≤ i → r.out.bytes[i]? = rb[i]?

theorem protect_kept {L : Lib} {f : EvpFault} {c c' : Record.Conn} {rt : Record.RecordType}
    {pt : List Iovec} {rb : Bytes} {r : Record.Result}
    (h : Record.protect L f c rt pt (.buf rb) = .ok (c', r)) : KeptRecord rb r := by
  unfold Record.protect at h
  simp only at h
  split at h
  · cases h; exact ⟨rfl, rfl, fun h => by cases h⟩
  split at h
  · cases h; exact ⟨rfl, rfl, fun h => by cases h⟩
  simp only [HalfConn.exec_bind_eq_ok] at h
  obtain ⟨rb', h1, h⟩ := h
  have hl := writeAt_length h1
  obtain ⟨hb, h1⟩ := writeAt_ok h1
  cases ht : Record.convertRecordType rt with
  | error e =>
    rw [ht] at h
    cases h
    refine ⟨rfl, hl, fun h => ?_⟩
    cases rt <;> simp [Record.convertRecordType] at ht
    subst ht
    simp [Record.convertStatus] at h
  | ok t =>
    rw [ht] at h
    simp only [HalfConn.exec_bind_eq_ok] at h
    obtain ⟨rest, hs, ⟨outC, call, r'⟩, he, h⟩ := h
    rw [headerBytes_length] at hb
    simp only [Iovec.slice] at hs
    rw [if_pos (by simp only [Record.kHeaderLength]; omega)] at hs
    cases hs
    obtain ⟨hk1, hk2⟩ := halfEncrypt_kept he
    simp only [List.length_take, List.length_drop, Record.kHeaderLength] at hk1
    simp only at h
    split at h
    · rename_i hst
      cases h
      refine ⟨rfl, by simp [bytes_buf, zeros, hl], fun h => ?_⟩
      exact absurd h (Record.convertStatus_ne hst)
    · rename_i hst
      have hst : r'.status = .ok := Classical.not_not.1 hst
      cases h
      refine ⟨rfl, by simp [bytes_buf, Record.kHeaderLength]; omega, fun _ i hi => ?_⟩
      simp only [bytes_buf, Record.kHeaderLength] at hi ⊢
      rw [List.getElem?_append_right (by simp; omega)]
      have := hk2 hst (i - 5) (by omega)
      simp only [List.length_take, Nat.min_eq_left (by omega : 5 ≤ rb'.length)]
      rw [this]
      simp only [Record.kHeaderLength, List.getElem?_take, List.getElem?_drop]
      rw [hl]
      by_cases hc : i - 5 < rb.length - 5
      · rw [if_pos hc, h1, replaced_get? (by rw [headerBytes_length]; omega), headerBytes_length,
          if_neg (by omega)]
        congr 1; omega
      · rw [if_neg hc, List.getElem?_eq_none (by omega)]

theorem recordProtect_same (L : Lib) (f : EvpFault) (c : Record.Conn) (rt : Record.RecordType)
    (m : Bytes) (pt : List Ptr) (ro rn : Nat) (hm : ro + rn ≤ m.length)
    (hi : ∀ v ∈ pt, Inside m v) (hp : Placed 0 5 ro 0 pt) :
    recordProtect L f c rt m pt ro rn =
      (Record.protect L f c rt (pt.map (·.view m)) (.buf (get m ro rn))).map fun x =>
        (replaced m ro x.2.out.bytes, x.1, x.2) := by
  have hg := get_length hm
  have hr := replaced_get hm
  unfold recordProtect Record.protect
  simp only [total_view hi]
  generalize hn : (pt.map Ptr.len).sum = n
  by_cases h1 : n > Record.kMaxPlaintext
  · rw [if_pos h1, if_pos h1]; simp [Except.map, bytes_buf, hr]
  rw [if_neg h1, if_neg h1]
  have hlen : (Iovec.buf (get m ro rn)).len = rn := hg
  rw [hlen]
  by_cases h2 : rn < n + c.recordOverhead
  · rw [if_pos h2, if_pos h2]; simp [Except.map, bytes_buf, hr]
  rw [if_neg h2, if_neg h2]
  have h22 : 22 ≤ rn := by rw [Record.recordOverhead_eq] at h2; omega
  generalize n + 1 + c.outC.tagLength = ps
  have hh := headerBytes_length ps
  have hw : writeAt m ro (Record.headerBytes ps) =
      .ok (replaced m ro (replaced (get m ro rn) 0 (Record.headerBytes ps))) := by
    have := writeAt_replaced (m := m) (oo := ro) (off := 0) (out := get m ro rn)
      (w := Record.headerBytes ps) (by omega) (by omega)
    rwa [hr, Nat.add_zero] at this
  rw [hw, writeAt_eq (by omega)]
  simp only [bind, Except.bind]
  generalize hrb : replaced (get m ro rn) 0 (Record.headerBytes ps) = rb
  have hrbl : rb.length = rn := by rw [← hrb, replaced_length (by omega), hg]
  have hgrb : get (replaced m ro rb) ro rn = rb := by
    have := get_replaced (m := m) (off := ro) (w := rb) (by omega)
    rwa [hrbl] at this
  cases ht : Record.convertRecordType rt with
  | error e =>
    simp only [pure, Except.pure, Except.map, bytes_buf, hgrb]
  | ok t =>
    have hm1 : replaced m ro rb = replaced m ro (Record.headerBytes ps) := by
      have := writeAt_eq (m := m) (off := ro) (w := Record.headerBytes ps) (by omega)
      rw [hw, hrb] at this
      exact Except.ok.inj this
    have hviews : pt.map (·.view (replaced m ro rb)) = pt.map (·.view m) := by
      rw [hm1]; exact placed_header hh (by omega) hp
    have hE := halfEncrypt_same L f c.outC (replaced m ro rb) [.mem ro Record.kHeaderLength]
      (pt ++ [.stack [t]]) (ro + Record.kHeaderLength) (rn - Record.kHeaderLength)
      (by rw [replaced_length (by omega)]; simp only [Record.kHeaderLength]; omega)
      (fun v hv => by
        rcases List.mem_append.1 hv with hv | hv
        · exact inside_replaced (by omega) (hi v hv)
        · simp at hv; subst hv; trivial)
      (placed_payload hp)
    have haad : [Ptr.mem ro Record.kHeaderLength].map (·.view (replaced m ro rb)) =
        [.buf (Record.headerBytes ps)] := by
      simp only [List.map_cons, List.map_nil, Ptr.view]
      have := get_replaced (m := m) (off := ro) (w := Record.headerBytes ps) (by omega)
      rw [hh] at this
      rw [hm1]
      simp only [get] at this
      rw [this]
    have hslice : (Iovec.buf rb).slice Record.kHeaderLength (rb.length - Record.kHeaderLength) =
        .ok (.buf (get (replaced m ro rb) (ro + Record.kHeaderLength) (rn - Record.kHeaderLength))) := by
      simp only [Iovec.slice]
      rw [if_pos (by simp only [Record.kHeaderLength]; omega)]
      rw [get_sub (by omega) _ _ (by simp only [Record.kHeaderLength]; omega), hrbl]
      rfl
    rw [hslice]
    simp only
    rw [hE, haad, List.map_append, hviews]
    simp only [List.map_cons, List.map_nil, view_stack]
    cases he : HalfConn.encrypt L f c.outC [.buf (Record.headerBytes ps)]
        (pt.map (·.view m) ++ [.buf [t]])
        (.buf (get (replaced m ro rb) (ro + Record.kHeaderLength) (rn - Record.kHeaderLength))) with
    | error e => rfl
    | ok x =>
      obtain ⟨outC, call, r⟩ := x
      have hk := (halfEncrypt_kept he).len
      rw [get_length (by rw [replaced_length (by omega)]; simp only [Record.kHeaderLength]; omega)] at hk
      simp only [Record.kHeaderLength] at hk
      have hrs := replaced_sub (m := m) (ro := ro) (rb := rb) (w := r.out.bytes) (a := 5)
        (by omega) (by omega)
      have hfl : (rb.take 5 ++ r.out.bytes).length = rn := by simp; omega
      simp only [Except.map, Record.kHeaderLength, hrs]
      by_cases hst : r.status ≠ .ok
      · rw [if_pos hst, if_pos hst]
        have hc := clear_replaced (m := m) (oo := ro) (out := rb.take 5 ++ r.out.bytes) (by omega)
        rw [hfl] at hc
        have hz := get_replaced (m := m) (off := ro) (w := zeros rn) (by simp [zeros]; omega)
        rw [show (zeros rn).length = rn by simp [zeros]] at hz
        simp only [hc, hz, hrbl, pure, Except.pure, bytes_buf]
      · rw [if_neg hst, if_neg hst]
        have hz := get_replaced (m := m) (off := ro) (w := rb.take 5 ++ r.out.bytes) (by omega)
        rw [hfl] at hz
        simp only [pure, Except.pure, bytes_buf, hz]

theorem dispatch_kept {L : Lib} {f : KeyFault} {c c' : Record.Conn} {call} {pt : Bytes} {w : Nat}
    {r : Record.Result} (h : Record.dispatch L f c call pt w = .ok (c', r)) :
    r.out.bytes.length = pt.length := by
  unfold Record.dispatch at h
  simp only [HalfConn.exec_bind_eq_ok] at h
  obtain ⟨x, _, h⟩ := h
  cases x with
  | none => cases h; rfl
  | some x =>
    obtain ⟨n, t⟩ := x
    simp only at h
    split at h
    · split at h
      · cases h; simp [bytes_buf, zeros]
      · split at h
        · cases h
        · split at h <;> cases h <;> simp [bytes_buf, zeros]
    · split at h
      · simp only [HalfConn.exec_bind_eq_ok] at h
        obtain ⟨x, _, y, _, h⟩ := h
        split at h <;> cases h <;> rfl
      · split at h
        · split at h
          · cases h; rfl
          · split at h
            · simp only [HalfConn.exec_bind_eq_ok] at h
              obtain ⟨x, _, h⟩ := h
              cases h; rfl
            · cases h; rfl
        · cases h; simp [bytes_buf, zeros]

theorem decrypt_kept {L : Lib} {f : EvpFault} {hc hc' : HalfConn} {aad ct : List Iovec}
    {ob : Bytes} {call} {r : Aead.Result}
    (h : hc.decrypt L f aad ct (.buf ob) = .ok (hc', call, r)) :
    r.out = .buf r.out.bytes ∧ r.out.bytes.length = ob.length := by
  unfold HalfConn.decrypt at h
  split at h
  · cases h; exact ⟨rfl, rfl⟩
  simp only [HalfConn.exec_bind_eq_ok] at h
  obtain ⟨⟨n, h2⟩, _, r', h, h'⟩ := h
  cases h'
  unfold Aead.Crypter.decrypt at h
  split at h
  · refine ⟨?_, boringDecrypt_length h⟩
    unfold Aead.boringDecrypt at h
    rw [if_neg (show ¬ ¬ (Iovec.buf ob).WF by simp [Iovec.WF])] at h
    simp only at h
    repeat' split at h
    all_goals first
      | (cases h; rfl; done)
      | skip
    simp only [HalfConn.exec_bind_eq_ok] at h
    obtain ⟨o, ho, _, _, _, _, h⟩ := h
    cases h
    rfl
  · unfold Aead.evpDecrypt at h
    rw [if_neg (show ¬ ¬ (Iovec.buf ob).WF by simp [Iovec.WF])] at h
    simp only at h
    split at h
    · cases h; exact ⟨rfl, rfl⟩
    split at h
    · cases h; exact ⟨rfl, rfl⟩
    split at h
    · cases h; exact ⟨rfl, rfl⟩
    simp only [HalfConn.exec_bind_eq_ok] at h
    obtain ⟨x, _, h⟩ := h
    cases x with
    | error e => cases h; exact ⟨rfl, rfl⟩
    | ok c =>
      simp only [HalfConn.exec_bind_eq_ok] at h
      obtain ⟨⟨o, x⟩, hE, h⟩ := h
      have hl := decLoop_length hE
      simp only [bytes_buf] at hl
      cases x with
      | error e => cases h; exact ⟨rfl, hl⟩
      | ok s =>
        simp only at h
        split at h
        · cases h; exact ⟨rfl, by simp [Iovec.setBytes, bytes_buf, zeros, hl]⟩
        simp only [HalfConn.exec_bind_eq_ok] at h
        obtain ⟨t, _, t', _, h⟩ := h
        split at h
        · cases h
        split at h
        · cases h; exact ⟨rfl, by simp [Iovec.setBytes, bytes_buf, zeros, hl]⟩
        split at h
        · cases h; exact ⟨rfl, by simp [Iovec.setBytes, bytes_buf, zeros, hl]⟩
        simp only [HalfConn.exec_bind_eq_ok] at h
        obtain ⟨w, _, h⟩ := h
        cases h
        exact ⟨rfl, hl⟩

theorem recordUnprotect_same (L : Lib) (f : Record.Fault) (c : Record.Conn) (header m : Bytes)
    (payload : List Ptr) (oo on : Nat) (hm : oo + on ≤ m.length)
    (hi : ∀ v ∈ payload, Inside m v) (hp : Placed 0 0 oo 0 payload) :
    recordUnprotect L f c header m payload oo on =
      (Record.unprotect L f c (.buf header) (payload.map (·.view m)) (.buf (get m oo on))).map fun x =>
        (replaced m oo x.2.out.bytes, x.1, x.2) := by
  have hg := get_length hm
  have hr := replaced_get hm
  unfold recordUnprotect Record.unprotect
  have hh : (Iovec.buf header).len = header.length := rfl
  simp only [total_view hi, hh]
  generalize header.length + (payload.map Ptr.len).sum = n
  by_cases h1 : c.closeNotify = true
  · rw [if_pos h1, if_pos h1]; simp [Except.map, bytes_buf, hr]
  rw [if_neg h1, if_neg h1]
  by_cases h2 : n < c.recordOverhead
  · rw [if_pos h2, if_pos h2]; simp [Except.map, bytes_buf, hr]
  rw [if_neg h2, if_neg h2]
  by_cases h3 : n > c.recordOverhead + Record.kMaxPlaintext
  · rw [if_pos h3, if_pos h3]; simp [Except.map, bytes_buf, hr]
  rw [if_neg h3, if_neg h3]
  by_cases h4 : (!Record.validateHeader (.buf header) n) = true
  · rw [if_pos h4, if_pos h4]; simp [Except.map, bytes_buf, hr]
  rw [if_neg h4, if_neg h4, halfDecrypt_same L f.evp c.inC m [.stack header] payload oo on hm hi hp]
  simp only [List.map_cons, List.map_nil, view_stack]
  cases he : HalfConn.decrypt L f.evp c.inC [.buf header] (payload.map (·.view m))
      (.buf (get m oo on)) with
  | error e => rfl
  | ok x =>
    obtain ⟨inC, call, r⟩ := x
    obtain ⟨hb, hl⟩ := decrypt_kept he
    rw [hg] at hl
    generalize hob : r.out.bytes = ob at *
    simp only [bind, Except.bind, Except.map]
    by_cases hst : r.status ≠ .ok
    · rw [if_pos hst, if_pos hst]
      have hc := clear_replaced (m := m) (oo := oo) (out := ob) (by omega)
      rw [hl] at hc
      have hz := get_replaced (m := m) (off := oo) (w := zeros on) (by simp [zeros]; omega)
      rw [show (zeros on).length = on by simp [zeros]] at hz
      simp only [hb, hc, hz, hl, Record.zeroOut, pure, Except.pure, bytes_buf]
    · rw [if_neg hst, if_neg hst]
      have hz := get_replaced (m := m) (off := oo) (w := ob) (by omega)
      rw [hl] at hz
      simp only [hb, bytes_buf, hz]
      cases hd : Record.dispatch L f.key { c with inC := inC } call ob r.written with
      | error e => rfl
      | ok y =>
        have hk := dispatch_kept (c' := y.1) (r := y.2) hd
        simp only
        rw [writeAt_eq (by rw [replaced_length (by omega)]; omega), replaced_replaced (by omega) (by omega)]
        rfl

end S2A.InPlace
