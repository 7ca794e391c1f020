import Verif.Lemmas.Record
namespace S2A.Record
open HalfConn

/-! ### Padding -/

theorem dropWhile_replicate_zero (k : Nat) (l : Bytes) :
    (List.replicate k (0 : UInt8) ++ l).dropWhile (· == 0) = l.dropWhile (· == 0) := by
  induction k with
  | zero => simp
  | succ k ih => simp [List.replicate_succ, List.dropWhile_cons, ih]

theorem unpad_inner (content : Bytes) (t : UInt8) (k : Nat) (ht : t ≠ 0) :
    Spec.unpad (Spec.innerPlaintext content t k) = some (content, t) := by
  unfold Spec.unpad Spec.innerPlaintext
  simp only [List.reverse_append, List.reverse_cons, List.reverse_replicate, List.append_assoc]
  rw [dropWhile_replicate_zero]
  simp [ht]

theorem dropWhile_split (l : Bytes) :
    ∃ k, l = List.replicate k 0 ++ l.dropWhile (· == 0) := by
  induction l with
  | nil => exact ⟨0, rfl⟩
  | cons x xs ih =>
    by_cases hx : x = 0
    · obtain ⟨k, hk⟩ := ih
      refine ⟨k + 1, ?_⟩
      rw [hx, List.dropWhile_cons, if_pos (by simp), List.replicate_succ, List.cons_append, ← hk]
    · exact ⟨0, by simp [List.dropWhile_cons, hx]⟩

/-- The two cases of `unpad`. -/
theorem unpad_cases (p : Bytes) :
    (Spec.unpad p = none ∧ p = List.replicate p.length 0) ∨
    ∃ content t k, t ≠ 0 ∧ p = Spec.innerPlaintext content t k ∧
      Spec.unpad p = some (content, t) := by
  obtain ⟨k, hk⟩ := dropWhile_split p.reverse
  cases hd : p.reverse.dropWhile (· == 0) with
  | nil =>
    left
    rw [hd] at hk
    refine ⟨by simp [Spec.unpad, hd], ?_⟩
    have h1 := congrArg List.reverse hk
    simp only [List.reverse_reverse, List.append_nil, List.reverse_replicate] at h1
    have h2 := congrArg List.length h1
    simp only [List.length_replicate] at h2
    rw [← h2] at h1
    exact h1
  | cons t c =>
    right
    have ht : t ≠ 0 := by
      have := List.head_dropWhile_not (l := p.reverse) (fun (x : UInt8) => x == 0) (by rw [hd]; simp)
      simpa [hd] using this
    refine ⟨c.reverse, t, k, ht, ?_, by simp [Spec.unpad, hd]⟩
    rw [hd] at hk
    have h1 := congrArg List.reverse hk
    simpa [Spec.innerPlaintext] using h1

theorem lastNonzero_inner (content : Bytes) (t : UInt8) (k : Nat) (tail : Bytes) (ht : t ≠ 0) :
    lastNonzero (Spec.innerPlaintext content t k ++ tail)
      (Spec.innerPlaintext content t k).length = .ok (some (content.length, t)) := by
  have hlen : (Spec.innerPlaintext content t k).length = content.length + 1 + k := by
    simp [Spec.innerPlaintext]; omega
  rw [hlen]
  have : ∀ j, j ≤ k → lastNonzero (Spec.innerPlaintext content t k ++ tail)
      (content.length + 1 + j) = .ok (some (content.length, t)) := by
    intro j
    induction j with
    | zero =>
      intro _
      simp [lastNonzero, Spec.innerPlaintext, ht]
    | succ j ih =>
      intro hj
      have h0 : (Spec.innerPlaintext content t k ++ tail)[content.length + 1 + j]? = some 0 := by
        rw [List.getElem?_append_left (by rw [hlen]; omega)]
        unfold Spec.innerPlaintext
        rw [List.getElem?_append_right (by omega)]
        rw [show content.length + 1 + j - content.length = j + 1 by omega]
        simp [List.getElem?_replicate]
        omega
      rw [← Nat.add_assoc, lastNonzero, h0]
      simp [ih (by omega)]
  exact this k (Nat.le_refl _)

theorem lastNonzero_zeros (n : Nat) (tail : Bytes) :
    lastNonzero (List.replicate n 0 ++ tail) n = .ok none := by
  have : ∀ j, j ≤ n → lastNonzero (List.replicate n 0 ++ tail) j = .ok none := by
    intro j
    induction j with
    | zero => intro _; rfl
    | succ j ih =>
      intro hj
      have h0 : (List.replicate n (0 : UInt8) ++ tail)[j]? = some 0 := by
        rw [List.getElem?_append_left (by simp; omega)]
        simp [List.getElem?_replicate]
        omega
      rw [lastNonzero, h0]
      simp [ih (by omega)]
  exact this n (Nat.le_refl _)

theorem unpad_length {p content : Bytes} {t : UInt8} (h : Spec.unpad p = some (content, t)) :
    t ≠ 0 ∧ content.length < p.length ∧ p.take content.length = content ∧
      ∃ k, p = Spec.innerPlaintext content t k := by
  rcases unpad_cases p with ⟨h1, _⟩ | ⟨c, t', k, h1, h2, h3⟩
  · rw [h1] at h; cases h
  · rw [h3] at h
    cases h
    refine ⟨h1, ?_, ?_, k, h2⟩
    · rw [h2]; simp [Spec.innerPlaintext]
    · rw [h2]; simp [Spec.innerPlaintext]

theorem lastNonzero_unpad (p tail : Bytes) :
    lastNonzero (p ++ tail) p.length =
      .ok ((Spec.unpad p).map fun x => (x.1.length, x.2)) := by
  rcases unpad_cases p with ⟨h1, h2⟩ | ⟨c, t', k, h1, h2, h3⟩
  · rw [h1]
    have := lastNonzero_zeros p.length tail
    rw [← h2] at this
    exact this
  · rw [h3, h2]
    exact lastNonzero_inner c t' k tail h1

/-! ### The steps after decryption, by content type -/

section dispatch
variable (L : Lib) (f : KeyFault) (c : Conn) (call : Option AeadCall) (p tail : Bytes)

theorem dispatch_none (h : Spec.unpad p = none) :
    dispatch L f c call (p ++ tail) p.length =
      .ok (c, ⟨.invalidRecord, 0, .buf (p ++ tail), call, none, some p⟩) := by
  have htk : (p ++ tail).take p.length = p := by simp
  unfold dispatch
  rw [lastNonzero_unpad, h]
  simp only [htk]
  rfl

theorem dispatch_alert {content : Bytes} (h : Spec.unpad p = some (content, Spec.alertType)) :
    dispatch L f c call (p ++ tail) p.length =
      .ok (if content.length < 2 then
          (c, ⟨.invalidRecord, 0, .buf (zeros (p ++ tail).length), call, none, some p⟩)
        else if content[1]? = some 0 then
          ({ c with closeNotify := true },
            ⟨.alertCloseNotify, 0, .buf (zeros (p ++ tail).length), call, none, some p⟩)
        else (c, ⟨.alertOther, 0, .buf (zeros (p ++ tail).length), call, none, some p⟩)) := by
  obtain ⟨_, hl, ht, _⟩ := unpad_length h
  have htk : (p ++ tail).take p.length = p := by simp
  unfold dispatch
  rw [lastNonzero_unpad, h]
  simp only [htk]
  simp only [Option.map_some, exec_bind_ok, Spec.alertType, if_pos, exec_pure]
  by_cases h2 : content.length < 2
  · simp [h2]
  · simp only [if_neg h2]
    have hget : (p ++ tail)[1]? = content[1]? := by
      rw [List.getElem?_append_left (by omega)]
      conv => rhs; rw [← ht]
      rw [List.getElem?_take, if_pos (by omega)]
    rw [hget]
    obtain ⟨x, hx⟩ : ∃ x, content[1]? = some x := ⟨content[1], by simp⟩
    rw [hx]
    simp only [Option.some.injEq]
    by_cases hz : x = kCloseNotify
    · rw [if_pos hz, if_pos hz]
    · rw [if_neg hz, if_neg hz]

theorem dispatch_handshake {content : Bytes}
    (h : Spec.unpad p = some (content, Spec.handshakeType)) :
    dispatch L f c call (p ++ tail) p.length = (do
      let (h, r) ← c.handler.process content
      let (c, st, rekey) ← handleResult L f { c with handler := h } r
      .ok (c, ⟨if st = .ok then .ok else .internalError, 0, .buf (p ++ tail), call, rekey, some p⟩)) := by
  obtain ⟨_, hl, ht, _⟩ := unpad_length h
  have htk : (p ++ tail).take p.length = p := by simp
  unfold dispatch
  rw [lastNonzero_unpad, h]
  simp only [htk]
  simp only [Option.map_some, exec_bind_ok, Spec.handshakeType, exec_pure]
  rw [if_neg (by decide), if_pos trivial, List.take_append_of_le_length (by omega), ht]
  cases c.handler.process content with
  | error e => rfl
  | ok x =>
    simp only [exec_bind_ok]
    cases handleResult L f { c with handler := x.1 } x.2 with
    | error e => rfl
    | ok y =>
      simp only [exec_bind_ok]
      by_cases hy : y.2.1 = .ok <;> simp [hy]

theorem dispatch_appData {content : Bytes}
    (h : Spec.unpad p = some (content, Spec.appDataType)) :
    dispatch L f c call (p ++ tail) p.length =
      if c.expecting then .ok (c, ⟨.invalidRecord, 0, .buf (p ++ tail), call, none, some p⟩)
      else if c.phase = .receiving then do
        let c ← retrieveAndSend c
        .ok ({ c with phase := .done }, ⟨.ok, content.length, .buf (p ++ tail), call, none, some p⟩)
      else .ok (c, ⟨.ok, content.length, .buf (p ++ tail), call, none, some p⟩) := by
  have htk : (p ++ tail).take p.length = p := by simp
  unfold dispatch
  rw [lastNonzero_unpad, h]
  simp only [htk]
  simp only [Option.map_some, exec_bind_ok, Spec.appDataType, exec_pure]
  rw [if_neg (by decide), if_neg (by decide), if_pos trivial]

theorem dispatch_other {content : Bytes} {t : UInt8} (h : Spec.unpad p = some (content, t))
    (h1 : t ≠ Spec.alertType) (h2 : t ≠ Spec.handshakeType) (h3 : t ≠ Spec.appDataType) :
    dispatch L f c call (p ++ tail) p.length =
      .ok (c, ⟨.invalidRecord, 0, .buf (zeros (p ++ tail).length), call, none, some p⟩) := by
  have htk : (p ++ tail).take p.length = p := by simp
  unfold dispatch
  rw [lastNonzero_unpad, h]
  simp only [htk]
  simp only [Option.map_some, exec_bind_ok, exec_pure]
  rw [if_neg (c := t = kAlert) h1, if_neg (c := t = kHandshake) h2, if_neg (c := t = kAppData) h3]

end dispatch

/-! ### `Unprotect` up to the decryption -/

theorem validateHeader_iff (header : Iovec) (n : Nat) (hn : n < 65536) :
    validateHeader header (header.len + n) = true ↔ header = .buf (Spec.recordHeader n) := by
  have key : ∀ b3 b4 : UInt8, 5 + n = 5 + b3.toNat * 256 + b4.toNat ↔
      b3 = UInt8.ofNat (n / 256) ∧ b4 = UInt8.ofNat n := by
    intro b3 b4
    have := b3.toNat_lt
    have := b4.toNat_lt
    simp only [← UInt8.toNat_inj, UInt8.toNat_ofNat']
    omega
  cases header with
  | null k => simp [validateHeader]
  | buf d =>
    match d with
    | [b0, b1, b2, b3, b4] =>
      simp only [validateHeader, Bool.and_eq_true, beq_iff_eq, Iovec.len, List.length_cons,
        List.length_nil, Nat.zero_add, kHeaderLength, Nat.shiftLeft_eq, Nat.reducePow,
        Iovec.buf.injEq, Spec.recordHeader, List.cons.injEq, and_true]
      have := key b3 b4
      simp only [kAppData, kWireVersion]
      constructor
      · rintro ⟨⟨⟨a, b⟩, c⟩, d⟩
        exact ⟨a, b, c, (this.1 d).1, (this.1 d).2⟩
      · rintro ⟨a, b, c, d, e⟩
        exact ⟨⟨⟨a, b⟩, c⟩, this.2 ⟨d, e⟩⟩
    | [] => simp [validateHeader, Spec.recordHeader]
    | [_] => simp [validateHeader, Spec.recordHeader]
    | [_, _] => simp [validateHeader, Spec.recordHeader]
    | [_, _, _] => simp [validateHeader, Spec.recordHeader]
    | [_, _, _, _] => simp [validateHeader, Spec.recordHeader]
    | _ :: _ :: _ :: _ :: _ :: _ :: _ => simp [validateHeader, Spec.recordHeader]

theorem zeroOut_wf {v : Iovec} (h : v.WF) : zeroOut v = .ok (v.setBytes (zeros v.len)) := by
  cases v with
  | null n => simp only [Iovec.WF] at h; subst h; rfl
  | buf d => rfl

/-- What an `Unprotect` call does with a record it is given, up to the decryption. -/
def UnprotectSpec (L : Lib) (f : Fault) (c : Conn) (header : Iovec) (payload : List Iovec)
    (out : Iovec) (e : Exec (Conn × Result)) : Prop :=
  (c.closeNotify = true ∧ e = .ok (c, ⟨.alertCloseNotify, 0, out, none, none, none⟩)) ∨
  (c.closeNotify = false ∧
   ((header.len + totalLen payload < 22 ∧
      e = .ok (c, ⟨.failedPrecondition, 0, out, none, none, none⟩)) ∨
    (header.len + totalLen payload > 16406 ∧
      e = .ok (c, ⟨.alertRecordOverflow, 0, out, none, none, none⟩)) ∨
    (22 ≤ header.len + totalLen payload ∧ header.len + totalLen payload ≤ 16406 ∧
      ((header ≠ .buf (Spec.recordHeader (totalLen payload)) ∧
          e = .ok (c, ⟨.failedPrecondition, 0, out, none, none, none⟩)) ∨
       (header = .buf (Spec.recordHeader (totalLen payload)) ∧
        ((blocked c.inC = true ∧
            e = .ok (c, ⟨.internalError, 0, out.setBytes (zeros out.len), none, none, none⟩)) ∨
         (blocked c.inC = false ∧
          (let key := c.inC.aead.key
           let nonce := Spec.recordNonce c.inC.nonce c.inC.seq.toNat
           let hdr := Spec.recordHeader (totalLen payload)
           let call : AeadCall := ⟨key, nonce, hdr, flat payload⟩
           let opened := Spec.aeadOpen L c.inC.aead.alg key nonce hdr (flat payload)
           (e = .ok ({ c with inC := bump c.inC },
               ⟨.internalError, 0, out.setBytes (zeros out.len), some call, none, none⟩) ∧
             (f.evp = .none → totalLen payload - 16 ≤ out.len → opened = none)) ∨
           ∃ p ob, opened = some p ∧ out = .buf ob ∧ p.length ≤ ob.length ∧ 1 ≤ p.length ∧
             p.length + 16 = totalLen payload ∧
             e = dispatch L f.key { c with inC := bump c.inC } (some call)
               (p ++ ob.drop p.length) p.length))))))))

theorem unprotect_spec (L : Lib) (f : Fault) (c : Conn) (header : Iovec) (payload : List Iovec)
    (out : Iovec) (hn : c.inC.nonce.length = 12) (hp : AllWF payload) (ho : out.WF) :
    UnprotectSpec L f c header payload out (unprotect L f c header payload out) := by
  unfold unprotect UnprotectSpec
  by_cases hcn : c.closeNotify = true
  · rw [if_pos hcn]; exact Or.inl ⟨hcn, rfl⟩
  rw [if_neg hcn]
  refine Or.inr ⟨by simpa using hcn, ?_⟩
  simp only [recordOverhead_eq]
  have hmax : 22 + kMaxPlaintext = 16406 := rfl
  by_cases h1 : header.len + totalLen payload < 22
  · rw [if_pos h1]; exact Or.inl ⟨h1, rfl⟩
  rw [if_neg h1]
  right
  by_cases h2 : header.len + totalLen payload > 22 + kMaxPlaintext
  · rw [if_pos h2]; exact Or.inl ⟨by omega, rfl⟩
  rw [if_neg h2]
  right
  refine ⟨by omega, by omega, ?_⟩
  have hv := validateHeader_iff header (totalLen payload) (by omega)
  by_cases h3 : validateHeader header (header.len + totalLen payload) = true
  case neg =>
    rw [if_pos (by simpa using h3)]
    exact Or.inl ⟨fun h => h3 (hv.2 h), rfl⟩
  rw [if_neg (by simpa using h3)]
  have hhd := hv.1 h3
  right
  refine ⟨hhd, ?_⟩
  have hl5 : header.len = 5 := by rw [hhd]; rfl
  have hfl := hp.totalLen_eq
  unfold decrypt
  by_cases hb : (c.inC.alwaysFail || c.inC.overflowed) = true
  · rw [if_pos hb, exec_bind_ok]
    simp only [ne_eq, reduceCtorEq, not_false_eq_true, if_true, zeroOut_wf ho, exec_bind_ok,
      exec_pure]
    exact Or.inl ⟨hb, trivial⟩
  · rw [if_neg hb, nonceMask_spec _ hn]
    right
    refine ⟨by simpa [blocked] using hb, ?_⟩
    simp only [exec_bind_ok]
    have hwa : AllWF [header] := by rw [hhd]; exact AllWF.cons trivial allWF_nil
    have hfa : flat [header] = Spec.recordHeader (totalLen payload) := by
      rw [hhd]; simp [Iovec.bytes]
    obtain ⟨st, w, ob', e1, e2, e3, e4, e5, e6⟩ := Aead.Crypter.decrypt_spec L f.evp c.inC.aead
      (Spec.recordNonce c.inC.nonce c.inC.seq.toNat) [header] payload out
      (totalLen_intLens (by simp; omega)) (totalLen_intLens (by omega)) hp ho
    rw [e1]
    rw [hfa] at e4 e5
    have hnl : (Spec.recordNonce c.inC.nonce c.inC.seq.toNat).length = 12 := by
      simp [Spec.recordNonce, hn]
    simp only [exec_bind_ok, exec_pure]
    by_cases hst : st = .ok
    · right
      obtain ⟨g1, g2, p, g3, g4, g5, g6⟩ := e4 hst
      obtain ⟨k1, k2⟩ := Aead.aeadOpen_length g3
      have hob : ∃ ob, out = .buf ob := by
        cases out with
        | null n => simp only [Iovec.WF] at ho; simp [Iovec.len] at g5; omega
        | buf ob => exact ⟨ob, rfl⟩
      obtain ⟨ob, rfl⟩ := hob
      refine ⟨p, ob, g3, rfl, g5, by omega, by omega, ?_⟩
      simp only [hst, ne_eq, not_true_eq_false, if_false, Iovec.setBytes, g6, g4, Iovec.bytes,
        hfa]
      rfl
    · left
      have hw : (out.setBytes ob').WF := by cases out <;> simp_all [Iovec.setBytes, Iovec.WF]
      have hz : zeroOut (out.setBytes ob') = .ok (out.setBytes (zeros out.len)) := by
        rw [zeroOut_wf hw]
        cases out with
        | null n => rfl
        | buf d => simp only [Iovec.setBytes, Iovec.len] at e2 ⊢; rw [e2]
      simp only [hst, ne_eq, not_false_eq_true, if_true, hz, exec_bind_ok, hfa]
      refine ⟨rfl, fun hf hlen => ?_⟩
      cases hop : Spec.aeadOpen L c.inC.aead.alg c.inC.aead.key
          (Spec.recordNonce c.inC.nonce c.inC.seq.toNat) (Spec.recordHeader (totalLen payload))
          (flat payload) with
      | none => rfl
      | some p => exact absurd (e5 hf hnl hwa (by omega) ⟨p, hop⟩) hst

end S2A.Record
