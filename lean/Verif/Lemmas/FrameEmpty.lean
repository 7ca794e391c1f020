import Verif.Lemmas.FrameSession
/-
Walking over buffers some of which are empty.
-/
namespace S2A.Frame
open Spec (Bufs AllocOk NonEmptyBufs HeaderBegun)
open HalfConn (exec_bind_eq_ok)

theorem _root_.S2A.Spec.Bufs.wf {vs} (h : Bufs vs) : AllWF vs := by
  intro v hv
  obtain ⟨d, rfl⟩ := h v hv
  trivial

/-- A cursor in a list of buffers that may be empty. -/
structure ECursor (vs : List Iovec) (on : Nat) : Prop where
  bufs : Bufs vs
  nil : vs = [] → on = 0
  cons : ∀ v ws, vs = v :: ws → on = 0 ∨ on < v.len

theorem ecursor_start {vs} (h : Bufs vs) : ECursor vs 0 :=
  ⟨h, fun _ => rfl, fun _ _ _ => Or.inl rfl⟩

theorem Cursor.weaken {vs on} (h : Cursor vs on) : ECursor vs on :=
  ⟨fun v hv => (h.bufs v hv).imp fun _ hd => hd.1, h.nil, fun v ws e => Or.inr (h.cons v ws e)⟩

theorem ecursor_advance {v vs on} (h : Bufs (v :: vs)) (hle : on ≤ v.len) :
    ECursor (advance v vs on).1 (advance v vs on).2 ∧
      ahead (advance v vs on).1 (advance v vs on).2 = ahead (v :: vs) on := by
  unfold advance
  by_cases hx : on ≥ v.len
  · rw [if_pos hx]
    refine ⟨ecursor_start fun w hw => h w (by simp [hw]), ?_⟩
    have e : on = v.len := by omega
    have hl := (h.wf).head.len_eq
    simp [ahead, e, hl]
  · rw [if_neg hx]
    refine ⟨⟨h, (by intro e; cases e), fun w ws e => ?_⟩, rfl⟩
    cases e
    omega

/-- Where an empty buffer stops the reading of a header. -/
def Blocks (k i : Nat) (vs : List Iovec) (on : Nat) : Prop :=
  ∃ pre post, vs = pre ++ .buf [] :: post ∧ (pre = [] → on = 0) ∧ (ahead pre on).length < k ∧
    takeHeader (ahead pre on).length i (ahead pre on) ≠ none

theorem readHeader_any (k i : Nat) (vs : List Iovec) (on : Nat) (h : ECursor vs on) :
    (readHeader k i vs on = .error .outOfBounds ∧ Blocks k i vs on) ∨
    (takeHeader k i (ahead vs on) = none ∧
      readHeader k i vs on = .ok (.error .failedPrecondition)) ∨
    ∃ hd vs' on', takeHeader k i (ahead vs on) = some (hd, ahead vs' on') ∧ ECursor vs' on' ∧
      readHeader k i vs on = .ok (.ok (hd, vs', on')) := by
  induction k generalizing i vs on with
  | zero => exact Or.inr (Or.inr ⟨[], vs, on, rfl, h, rfl⟩)
  | succ k ih =>
    cases vs with
    | nil =>
      right; left
      rw [h.nil rfl]
      exact ⟨rfl, rfl⟩
    | cons v vs =>
      obtain ⟨d, rfl⟩ := h.bufs v (by simp)
      by_cases hon : on < d.length
      case neg =>
        rcases h.cons _ _ rfl with h0 | h0
        · subst h0
          have : d = [] := List.length_eq_zero_iff.1 (by omega)
          subst this
          refine Or.inl ⟨rfl, [], vs, rfl, fun _ => rfl, ?_, ?_⟩
          · simp [ahead]
          · simp [ahead, takeHeader]
        · exact absurd h0 hon
      have hah : ∀ ws, ahead (.buf d :: ws) on = d[on] :: ahead (.buf d :: ws) (on + 1) := by
        intro ws
        have e : flat (.buf d :: ws) = d ++ flat ws := by simp [Iovec.bytes]
        unfold ahead
        rw [e, List.drop_append_of_le_length (by omega), List.drop_append_of_le_length (by omega),
          List.drop_eq_getElem_cons hon]
        rfl
      rw [hah]
      have hb : (Iovec.buf d).byteAt on = .ok d[on] := by
        simp [Iovec.byteAt, List.getElem?_eq_getElem hon]
      unfold readHeader takeHeader
      simp only [hb, exec_bind_ok]
      by_cases hok : headerByteOk i d[on] = true
      · simp only [hok, Bool.not_true, Bool.false_eq_true, if_false, if_true]
        obtain ⟨c1, c2⟩ := ecursor_advance h.bufs (on := on + 1) (by simp only [Iovec.len]; omega)
        rw [← c2]
        rcases ih (i + 1) _ _ c1 with ⟨a, b⟩ | ⟨a, b⟩ | ⟨hd', vs', on', a, b, c⟩
        · left
          refine ⟨by simp only [a, exec_bind_error], ?_⟩
          obtain ⟨pre, post, b1, b2, b3, b4⟩ := b
          have hh : ∃ pre', Iovec.buf d :: vs = pre' ++ .buf [] :: post ∧ pre' ≠ [] ∧
              ahead pre' on = d[on] :: ahead pre (advance (.buf d) vs (on + 1)).2 := by
            unfold advance at b1 b2 ⊢
            by_cases hx : on + 1 ≥ (Iovec.buf d).len
            · rw [if_pos hx] at b1 b2 ⊢
              refine ⟨.buf d :: pre, by rw [show vs = pre ++ .buf [] :: post from b1]; rfl, by simp, ?_⟩
              rw [hah pre]
              have hl : on + 1 = d.length := by simp only [Iovec.len] at hx; omega
              simp [ahead, Iovec.bytes, hl]
            · rw [if_neg hx] at b1 b2 ⊢
              cases pre with
              | nil => exact absurd (b2 rfl) (by simp)
              | cons p pre =>
                simp only [List.cons_append, List.cons.injEq] at b1
                obtain ⟨rfl, rfl⟩ := b1
                exact ⟨.buf d :: pre, rfl, by simp, hah pre⟩
          obtain ⟨pre', e1, e2, e3⟩ := hh
          refine ⟨pre', post, e1, fun h => absurd h e2, ?_, ?_⟩
          · rw [e3, List.length_cons]; omega
          · rw [e3, List.length_cons, takeHeader, if_pos hok]
            intro hn
            rw [Option.map_eq_none_iff] at hn
            exact b4 hn
        · right; left
          refine ⟨by rw [a]; rfl, ?_⟩
          simp only [b, exec_bind_ok, exec_pure]
        · right; right
          refine ⟨d[on] :: hd', vs', on', by rw [a]; rfl, b, ?_⟩
          simp only [c, exec_bind_ok, exec_pure]
      · right; left
        simp [hok]

theorem isolate_any (vs : List Iovec) (on n : Nat) (h : ECursor vs on) :
    ((ahead vs on).length < n ∧ isolate vs on n = .ok (.error .failedPrecondition)) ∨
    (n ≤ (ahead vs on).length ∧ ∃ ps vs' on', isolate vs on n = .ok (.ok (ps, vs', on')) ∧
      flat ps = (ahead vs on).take n ∧ AllWF ps ∧ ECursor vs' on' ∧
      ahead vs' on' = (ahead vs on).drop n) := by
  induction vs generalizing on n with
  | nil =>
    cases n with
    | zero => exact Or.inr ⟨Nat.zero_le _, [], [], on, rfl, rfl, allWF_nil, h, by simp⟩
    | succ n =>
      left
      refine ⟨?_, rfl⟩
      simp [ahead]
  | cons v vs ih =>
    cases n with
    | zero =>
      right
      refine ⟨Nat.zero_le _, [], v :: vs, on, rfl, ?_, allWF_nil, h, by simp⟩
      simp
    | succ n =>
      obtain ⟨d, rfl⟩ := h.bufs v (by simp)
      have hon : on ≤ (Iovec.buf d).len := by
        rcases h.cons _ _ rfl with h0 | h0 <;> omega
      have hlen : (Iovec.buf d).len = d.length := rfl
      have hah : ahead (.buf d :: vs) on = d.drop on ++ flat vs := by
        have e : flat (.buf d :: vs) = d ++ flat vs := by simp [Iovec.bytes]
        unfold ahead
        rw [e, List.drop_append_of_le_length (by rw [← hlen]; omega)]
      unfold isolate
      rw [subSize_ok hon, exec_bind_ok]
      simp only []
      have hsl : ∀ m, on + m ≤ (Iovec.buf d).len →
          (Iovec.buf d).slice on m = .ok (.buf ((d.drop on).take m)) := by
        intro m hm
        rw [hlen] at hm
        simp [Iovec.slice, hm]
      by_cases hm : n + 1 < (Iovec.buf d).len - on
      · have hmin : min ((Iovec.buf d).len - on) (n + 1) = n + 1 := by omega
        rw [hmin, hsl _ (by omega), exec_bind_ok, if_neg (by omega), exec_pure]
        rw [hlen] at hm hon
        right
        refine ⟨by rw [hah]; simp; omega, _, _, _, rfl, ?_, AllWF.cons trivial allWF_nil, ?_, ?_⟩
        · rw [hah]
          simp only [flat_cons, flat_nil, Iovec.bytes, List.append_nil]
          rw [List.take_append_of_le_length (by simp; omega)]
        · refine ⟨h.bufs, (by intro e; cases e), fun w ws e => ?_⟩
          cases e
          simp only [Iovec.len]; omega
        · unfold ahead; rw [List.drop_drop]
      · have hmin : min ((Iovec.buf d).len - on) (n + 1) = (Iovec.buf d).len - on := by omega
        rw [hmin, hsl _ (by omega), exec_bind_ok, if_pos (by omega), hlen]
        rw [hlen] at hm hon
        have hc := ecursor_start (vs := vs) fun w hw => h.bufs w (by simp [hw])
        have hv0 : ahead vs 0 = flat vs := by simp [ahead]
        rcases ih 0 (n + 1 - (d.length - on)) hc with ⟨a, b⟩ | ⟨a, ps, vs', on', b, c, e, g, k⟩
        · left
          rw [hv0] at a
          refine ⟨by rw [hah]; simp; omega, ?_⟩
          rw [b]; rfl
        · right
          rw [hv0] at a c k
          refine ⟨by rw [hah]; simp; omega, .buf ((d.drop on).take (d.length - on)) :: ps, vs', on',
            by rw [b]; rfl, ?_, AllWF.cons trivial e, g, ?_⟩
          · have ht : (d.drop on).take (d.length - on) = d.drop on := by
              apply List.take_of_length_le; simp
            rw [hah]
            simp only [flat_cons, Iovec.bytes, c, ht]
            rw [List.take_append, List.take_of_length_le (l := d.drop on) (by simp; omega)]
            simp
          · rw [k, hah, List.drop_append]
            rw [List.drop_of_length_le (l := d.drop on) (by simp; omega)]
            simp

/-- Reading a header and isolating the payload finds the first record, or stops at an empty
buffer. -/
theorem walk_any (vs : List Iovec) (on : Nat) (h : ECursor vs on) :
    (readHeader 5 0 vs on = .error .outOfBounds ∧ Blocks 5 0 vs on) ∨
    (Spec.firstRecord (ahead vs on) = none ∧
      (readHeader 5 0 vs on = .ok (.error .failedPrecondition) ∨
       ∃ hd vs' on', readHeader 5 0 vs on = .ok (.ok (hd, vs', on')) ∧
        isolate vs' on' (payloadSize hd) = .ok (.error .failedPrecondition))) ∨
    ∃ hd payload rest vs1 on1 ps vs' on',
      Spec.firstRecord (ahead vs on) = some (hd, payload, rest) ∧
      readHeader 5 0 vs on = .ok (.ok (hd, vs1, on1)) ∧
      isolate vs1 on1 (payloadSize hd) = .ok (.ok (ps, vs', on')) ∧ payloadSize hd = payload.length ∧
      flat ps = payload ∧ AllWF ps ∧ ECursor vs' on' ∧ ahead vs' on' = rest := by
  rcases readHeader_any 5 0 vs on h with hx | ⟨a, b⟩ | ⟨hd, vs', on', a, b, c⟩
  · exact Or.inl hx
  · right; left
    refine ⟨?_, Or.inl b⟩
    rw [takeHeader5] at a
    unfold Spec.firstRecord
    split at a
    · next b0 b1 b2 hi lo rest he =>
      rw [he]
      simp only
      rw [if_neg]
      rintro ⟨x, y, z, _⟩
      rw [if_pos ⟨x, y, z⟩] at a
      cases a
    · next hne =>
      split
      · next he => exact absurd he (hne _ _ _ _ _ _)
      · rfl
  · right
    rw [takeHeader5] at a
    split at a
    case h_2 => cases a
    next b0 b1 b2 hi lo rest he =>
    rw [he]
    split at a
    case isFalse => cases a
    next hv =>
    obtain ⟨x, y, z⟩ := hv
    simp only [Option.some.injEq, Prod.mk.injEq] at a
    obtain ⟨rfl, hr⟩ := a
    have hps : payloadSize [b0, b1, b2, hi, lo] = hi.toNat * 256 + lo.toNat := by
      simp [payloadSize, Nat.shiftLeft_eq]
    simp only [Spec.firstRecord, hr]
    rcases isolate_any vs' on' (payloadSize [b0, b1, b2, hi, lo]) b with
      ⟨e1, e2⟩ | ⟨e1, ps, vs2, on2, e2, e3, e4, e5, e6⟩
    · left
      rw [hps] at e1
      rw [if_neg (by omega)]
      exact ⟨rfl, Or.inr ⟨_, vs', on', c, e2⟩⟩
    · right
      rw [hps] at e1 e3 e6
      rw [if_pos ⟨x, y, z, e1⟩]
      refine ⟨_, _, _, vs', on', ps, vs2, on2, rfl, c, e2, ?_, e3, e4, e5, e6⟩
      rw [hps, List.length_take]; omega

/-! ### More buffers behind -/

theorem advance_append (v : Iovec) (vs X : List Iovec) (on : Nat) :
    advance v (vs ++ X) on = ((advance v vs on).1 ++ X, (advance v vs on).2) := by
  unfold advance
  split <;> rfl

theorem readHeader_append (k i : Nat) (vs X : List Iovec) (on : Nat) :
    (∀ e, readHeader k i vs on = .error e → readHeader k i (vs ++ X) on = .error e) ∧
    (∀ hd vs' on', readHeader k i vs on = .ok (.ok (hd, vs', on')) →
      readHeader k i (vs ++ X) on = .ok (.ok (hd, vs' ++ X, on'))) := by
  induction k generalizing i vs on with
  | zero =>
    refine ⟨fun e h => (by cases h), fun hd vs' on' h => ?_⟩
    cases h; rfl
  | succ k ih =>
    cases vs with
    | nil => exact ⟨fun e h => (by cases h), fun hd vs' on' h => (by cases h)⟩
    | cons v vs =>
      cases v with
      | null n =>
        refine ⟨fun e h => ?_, fun hd vs' on' h => (by cases h)⟩
        exact h
      | buf d =>
        simp only [List.cons_append, readHeader]
        cases hb : (Iovec.buf d).byteAt on with
        | error e' => simp
        | ok b =>
          simp only [exec_bind_ok]
          by_cases hok : headerByteOk i b = true
          · simp only [hok, Bool.not_true, Bool.false_eq_true, if_false]
            rw [advance_append]
            obtain ⟨i1, i2⟩ := ih (i + 1) (advance (.buf d) vs (on + 1)).1 (advance (.buf d) vs (on + 1)).2
            cases hr : readHeader k (i + 1) (advance (.buf d) vs (on + 1)).1
              (advance (.buf d) vs (on + 1)).2 with
            | error e' =>
              refine ⟨fun e h => ?_, fun hd vs' on' h => (by cases h)⟩
              rw [i1 e' hr]
              exact h
            | ok x =>
              cases x with
              | error e' => exact ⟨fun e h => (by cases h), fun hd vs' on' h => (by cases h)⟩
              | ok y =>
                obtain ⟨hd', vs2, on2⟩ := y
                refine ⟨fun e h => (by cases h), fun hd vs' on' h => ?_⟩
                rw [i2 _ _ _ hr]
                cases h
                rfl
          · simp only [hok, Bool.not_false, if_true]
            exact ⟨fun e h => (by cases h), fun hd vs' on' h => (by cases h)⟩

theorem isolate_append (vs X : List Iovec) (on n : Nat) (ps vs' : List Iovec) (on' : Nat)
    (h : isolate vs on n = .ok (.ok (ps, vs', on'))) :
    isolate (vs ++ X) on n = .ok (.ok (ps, vs' ++ X, on')) := by
  induction vs generalizing on n ps vs' on' with
  | nil =>
    cases n with
    | zero => cases h; simp [isolate]
    | succ n => cases h
  | cons v vs ih =>
    cases n with
    | zero => cases h; simp [isolate]
    | succ n =>
      cases v with
      | null n => cases h
      | buf d =>
        simp only [List.cons_append, isolate] at h ⊢
        cases hl : subSize (Iovec.buf d).len on with
        | error e => rw [hl] at h; cases h
        | ok left =>
          rw [hl] at h
          simp only [exec_bind_ok] at h ⊢
          cases hp : (Iovec.buf d).slice on (min left (n + 1)) with
          | error e => rw [hp] at h; cases h
          | ok piece =>
            rw [hp] at h
            simp only [exec_bind_ok] at h ⊢
            by_cases hm : min left (n + 1) + on = (Iovec.buf d).len
            · rw [if_pos hm] at h ⊢
              cases hr : isolate vs 0 (n + 1 - min left (n + 1)) with
              | error e => rw [hr] at h; cases h
              | ok x =>
                rw [hr] at h
                cases x with
                | error e => cases h
                | ok y =>
                  obtain ⟨ps', vs2, on2⟩ := y
                  rw [ih _ _ _ _ _ hr]
                  cases h
                  rfl
            · rw [if_neg hm] at h ⊢
              cases h
              rfl

/-- An empty buffer inside a header. -/
theorem readHeader_blocked (k i : Nat) (pre post : List Iovec) (on : Nat) (h : ECursor pre on)
    (hl : (ahead pre on).length < k)
    (ht : takeHeader (ahead pre on).length i (ahead pre on) ≠ none) :
    readHeader k i (pre ++ .buf [] :: post) on = .error .outOfBounds := by
  induction k generalizing i pre on with
  | zero => omega
  | succ k ih =>
    cases pre with
    | nil =>
      rw [h.nil rfl]
      rfl
    | cons v pre =>
      obtain ⟨d, rfl⟩ := h.bufs v (by simp)
      by_cases hon : on < d.length
      case neg =>
        rcases h.cons _ _ rfl with h0 | h0
        · subst h0
          have : d = [] := List.length_eq_zero_iff.1 (by omega)
          subst this
          rfl
        · exact absurd h0 hon
      have hah : ahead (.buf d :: pre) on = d[on] :: ahead (.buf d :: pre) (on + 1) := by
        have e : flat (.buf d :: pre) = d ++ flat pre := by simp [Iovec.bytes]
        unfold ahead
        rw [e, List.drop_append_of_le_length (by omega), List.drop_append_of_le_length (by omega),
          List.drop_eq_getElem_cons hon]
        rfl
      have hb : (Iovec.buf d).byteAt on = .ok d[on] := by
        simp [Iovec.byteAt, List.getElem?_eq_getElem hon]
      obtain ⟨c1, c2⟩ := ecursor_advance h.bufs (on := on + 1) (by simp only [Iovec.len]; omega)
      rw [hah, List.length_cons, ← c2] at hl
      rw [hah, List.length_cons, takeHeader, ← c2] at ht
      simp only [List.cons_append, readHeader, hb, exec_bind_ok]
      by_cases hok : headerByteOk i d[on] = true
      · rw [if_pos hok] at ht
        simp only [hok, Bool.not_true, Bool.false_eq_true, if_false]
        rw [advance_append]
        simp only [ih (i + 1) _ _ c1 (by omega) (fun hn => ht (by rw [hn]; rfl)), exec_bind_error]
      · rw [if_neg hok] at ht
        exact absurd rfl ht

theorem takeHeader_begun (b : Bytes) (hl : b.length < 5) :
    takeHeader b.length 0 b ≠ none ↔ HeaderBegun b := by
  unfold HeaderBegun
  match b, hl with
  | [], _ => simp [takeHeader]
  | [a], _ =>
    by_cases h : a = 23 <;> simp [takeHeader, headerByteOk, h]
  | [a, a1], _ =>
    by_cases h : a = 23 <;> by_cases h1 : a1 = 3 <;> simp [takeHeader, headerByteOk, h, h1]
  | [a, a1, a2], _ =>
    by_cases h : a = 23 <;> by_cases h1 : a1 = 3 <;> by_cases h2 : a2 = 3 <;>
      simp [takeHeader, headerByteOk, h, h1, h2]
  | [a, a1, a2, a3], _ =>
    by_cases h : a = 23 <;> by_cases h1 : a1 = 3 <;> by_cases h2 : a2 = 3 <;>
      simp [takeHeader, headerByteOk, h, h1, h2]

/-! ### The loop -/

/-- `Spec.EmptyInHeader` at a cursor. -/
def BlockedAt (vs : List Iovec) (on : Nat) (recs : List (Bytes × Bytes)) : Prop :=
  (∀ r ∈ recs, Spec.Whole r.1 r.2 ∧ 22 ≤ r.1.length + r.2.length) ∧
    ∃ pre part post, vs = pre ++ .buf [] :: post ∧
    (pre = [] → on = 0) ∧ ahead pre on = (recs.map fun r => r.1 ++ r.2).flatten ++ part ∧
    HeaderBegun part ∧ 22 ≤ part.length + (flat post).length

theorem ahead_append (pre X : List Iovec) (on : Nat) (h : ECursor pre on) :
    ahead (pre ++ X) on = ahead pre on ++ flat X := by
  unfold ahead
  rw [flat_append, List.drop_append_of_le_length]
  cases pre with
  | nil => rw [h.nil rfl]; exact Nat.zero_le _
  | cons v pre =>
    obtain ⟨d, rfl⟩ := h.bufs v (by simp)
    have : on ≤ d.length := by
      rcases h.cons _ _ rfl with h0 | h0
      · omega
      · simp only [Iovec.len] at h0; omega
    simp [Iovec.bytes]
    omega

theorem ecursor_prefix {pre X : List Iovec} {on : Nat} (h : ECursor (pre ++ X) on)
    (hn : pre = [] → on = 0) : ECursor pre on :=
  ⟨fun v hv => h.bufs v (by simp [hv]), hn, fun v ws e => h.cons v (ws ++ X) (by rw [e]; rfl)⟩

theorem Blocks.at {vs : List Iovec} {on : Nat} (hc : ECursor vs on) (h : Blocks 5 0 vs on)
    (hl : 22 ≤ (ahead vs on).length) : BlockedAt vs on [] := by
  obtain ⟨pre, post, rfl, h2, h3, h4⟩ := h
  refine ⟨by simp, pre, ahead pre on, post, rfl, h2, by simp, (takeHeader_begun _ h3).1 h4, ?_⟩
  rw [ahead_append pre _ on (ecursor_prefix hc h2)] at hl
  simpa [Iovec.bytes] using hl

theorem isolate_tail {vs : List Iovec} {on n : Nat} {ps vs' : List Iovec} {on' : Nat}
    (h : isolate vs on n = .ok (.ok (ps, vs', on'))) : vs' <:+ vs := by
  induction vs generalizing on n ps vs' on' with
  | nil =>
    cases n with
    | zero => cases h; exact List.suffix_refl _
    | succ n => cases h
  | cons v vs ih =>
    cases n with
    | zero => cases h; exact List.suffix_refl _
    | succ n =>
      cases v with
      | null n => cases h
      | buf d =>
        simp only [isolate, exec_bind_eq_ok] at h
        obtain ⟨left, _, piece, _, h⟩ := h
        split at h
        · obtain ⟨x, h1, h2⟩ := exec_bind_eq_ok.1 h
          cases x with
          | error e => cases h2
          | ok y =>
            obtain ⟨ps', vs2, on2⟩ := y
            cases h2
            exact (ih h1).trans (List.suffix_cons _ _)
        · cases h
          exact List.suffix_refl _


theorem advance_tail (v : Iovec) (vs : List Iovec) (on : Nat) : (advance v vs on).1 <:+ v :: vs := by
  unfold advance
  split
  · exact List.suffix_cons _ _
  · exact List.suffix_refl _

theorem readHeader_tail {k i : Nat} {vs : List Iovec} {on : Nat} {hd : Bytes} {vs' : List Iovec}
    {on' : Nat} (h : readHeader k i vs on = .ok (.ok (hd, vs', on'))) : vs' <:+ vs := by
  induction k generalizing i vs on hd with
  | zero => cases h; exact List.suffix_refl _
  | succ k ih =>
    cases vs with
    | nil => cases h
    | cons v vs =>
      cases v with
      | null n => cases h
      | buf d =>
        simp only [readHeader, exec_bind_eq_ok] at h
        obtain ⟨b, _, h⟩ := h
        split at h
        · cases h
        · obtain ⟨x, h1, h2⟩ := exec_bind_eq_ok.1 h
          cases x with
          | error e => cases h2
          | ok y =>
            obtain ⟨hd', vs2, on2⟩ := y
            cases h2
            exact (ih h1).trans (advance_tail _ _ _)

/-- What is ahead of a later cursor is ahead of an earlier one. -/
theorem BlockedAt.back {vs vs' : List Iovec} {on on' : Nat} {recs : List (Bytes × Bytes)}
    {r : Bytes × Bytes} (hc : ECursor vs on) (hc' : ECursor vs' on') (ht : vs' <:+ vs)
    (hw : Spec.Whole r.1 r.2) (hm : 22 ≤ r.1.length + r.2.length) (ha : ahead vs on = r.1 ++ r.2 ++ ahead vs' on')
    (h : BlockedAt vs' on' recs) : BlockedAt vs on (r :: recs) := by
  obtain ⟨h1, pre, part, post, rfl, h3, h4, h5, h6⟩ := h
  obtain ⟨q, rfl⟩ := ht
  have hlen : 5 ≤ r.1.length := by rw [hw.header]; simp [Spec.recordHeader]
  have hne : q ++ pre = [] → on = 0 := by
    intro he
    simp only [List.append_eq_nil_iff] at he
    obtain ⟨rfl, rfl⟩ := he
    rw [h3 rfl] at ha
    have := congrArg List.length ha
    simp only [ahead, List.nil_append, List.drop_zero, List.length_drop, List.length_append] at this
    omega
  have e1 : q ++ (pre ++ .buf [] :: post) = (q ++ pre) ++ .buf [] :: post := by simp
  rw [e1] at hc ha ⊢
  rw [ahead_append (q ++ pre) _ on (ecursor_prefix hc hne),
    ahead_append pre _ on' (ecursor_prefix hc' h3), ← List.append_assoc (r.1 ++ r.2)] at ha
  refine ⟨?_, q ++ pre, part, post, rfl, hne, ?_, h5, h6⟩
  · intro x hx
    rcases List.mem_cons.1 hx with rfl | hx
    · exact ⟨hw, hm⟩
    · exact h1 x hx
  · rw [List.append_cancel_right ha, h4]
    simp

theorem unprotect_ok_min {L : Lib} {f : Record.Fault} {c c' : Record.Conn} {hd : Bytes}
    {payload : List Iovec} {out : Iovec} {r : Record.Result}
    (h : Record.unprotect L f c (.buf hd) payload out = .ok (c', r)) (hc : r.code = .ok) :
    22 ≤ hd.length + totalLen payload := by
  unfold Record.unprotect at h
  have ho : c.recordOverhead = 22 := Record.recordOverhead_eq _
  split at h
  · cases h; cases hc
  simp only at h
  split at h
  · cases h; cases hc
  next hx => simp only [Iovec.len, ho] at hx; omega

/-- Any buffers, any failures: the loop returns, or runs into the undefined shift, or reads an
empty buffer where a header is expected. -/
theorem unprotectLoop_inside {L : Lib} {A : Allocator} {a : Record.CreateArgs}
    (hA : AllocOk A) (f : Nat → Record.Fault)
    (fuel i : Nat) (s : State) (vs : List Iovec) (on rem : Nat) (done : List (BufId × Bytes))
    (hr : Record.Reach L a s.conn s.evs) (hc : ECursor vs on) (hrem : rem = (ahead vs on).length)
    (hfuel : rem < fuel) (e : UB)
    (h : unprotectLoop L A f fuel i s vs on rem done = .error e) :
    e = .negativeShift ∨ e = .outOfBounds ∧ ∃ recs, BlockedAt vs on recs := by
  obtain ⟨su, hs⟩ := hr.suite
  induction fuel generalizing i s vs on rem done with
  | zero => omega
  | succ fuel ih =>
    unfold unprotectLoop at h
    by_cases hge : rem ≥ s.conn.recordOverhead
    case neg => rw [if_neg hge] at h; cases h
    rw [if_pos hge] at h
    have h22 : s.conn.recordOverhead = 22 := Record.recordOverhead_eq _
    rcases walk_any vs on hc with ⟨hw, hb⟩ | ⟨hno, hw | ⟨hd, v', o', h1, h2⟩⟩ |
      ⟨hd, payload, rest, vs1, on1, ps, vs', on2, hfr, k1, k2, k3, k4, k5, k6, k7⟩
    · simp only [hw, exec_bind_error] at h
      cases h
      exact Or.inr ⟨rfl, [], hb.at hc (by omega)⟩
    · simp only [hw, exec_bind_ok, exec_pure] at h
      cases h
    · simp only [h1, h2, exec_bind_ok, exec_pure] at h
      cases h
    obtain ⟨d, hd1, hd2⟩ := hA s.next payload.length
    obtain ⟨hsplit, hwhole⟩ := firstRecord_some hfr
    have htail : vs' <:+ vs := (isolate_tail k2).trans (readHeader_tail k1)
    rw [k3] at k2
    simp only [k1, exec_bind_ok, k3, k2, State.alloc, hd1, State.crypterUnprotect] at h
    rcases Record.unprotect_safe' (L := L) (f := f i) (header := .buf hd) (payload := ps)
      (out := .buf d) (hr.good hs).1 hr.safe k5 trivial with he | ⟨c', r, he, _⟩
    · simp only [he, exec_bind_error] at h
      cases h
      exact Or.inl rfl
    simp only [he, exec_bind_ok, exec_pure] at h
    by_cases hcode : r.code = .ok
    case neg => rw [if_pos hcode] at h; cases h
    rw [if_neg (not_not_intro hcode)] at h
    have hspl : rem = 5 + payload.length + rest.length := by
      rw [hrem, hsplit]
      have : hd.length = 5 := by rw [hwhole.header]; rfl
      simp [this]
      omega
    simp only [subSize_ok (show kHeaderLength + payload.length ≤ rem by simp [kHeaderLength]; omega), exec_bind_ok] at h
    rcases ih (i + 1) _ vs' on2 _ _
      (hr.step (op := .unprotect (f i) (.buf hd) ps (.buf d)) (by simp [Record.step, he])) k6
      (by rw [k7, hspl]; simp [kHeaderLength]) (by simp only [kHeaderLength]; omega) h with h | ⟨h, recs, hb⟩
    · exact Or.inl h
    · exact Or.inr ⟨h, (hd, payload) :: recs, hb.back hc k6 htail hwhole
        (by
          have := unprotect_ok_min he hcode
          rwa [k5.totalLen_eq, k4] at this) (by rw [k7]; simpa using hsplit)⟩

/-- The records that come before are accepted, however they are cut into buffers. -/
def Taken (L : Lib) (A : Allocator) (f : Nat → Record.Fault) (i : Nat) (s : State)
    (recs : List (Bytes × Bytes)) (done : List (BufId × Bytes)) : Prop :=
  ∀ ws on', Cursor ws on' → ahead ws on' = (recs.map fun r => r.1 ++ r.2).flatten →
    ∀ fuel, (ahead ws on').length < fuel → ∃ s' res,
      unprotectLoop L A f fuel i s ws on' (ahead ws on').length done = .ok (s', res) ∧
      res.status = .ok

/-- Without failures of the library: an empty buffer is read, after records that are accepted, or
the empty buffers make no difference. -/
theorem unprotectLoop_empty {L : Lib} {A : Allocator} {a : Record.CreateArgs}
    (hA : AllocOk A) {f : Nat → Record.Fault} (hf : ∀ j, (f j).evp = .none)
    (fuel i : Nat) (s : State) (vs : List Iovec) (on rem : Nat)
    (done : List (BufId × Bytes)) (hr : Record.Reach L a s.conn s.evs) (hc : ECursor vs on)
    (hrem : rem = (ahead vs on).length) :
    (unprotectLoop L A f fuel i s vs on rem done = .error .outOfBounds ∧
      ∃ recs, BlockedAt vs on recs ∧ Taken L A f i s recs done) ∨
    ∀ ws on', Cursor ws on' → ahead ws on' = ahead vs on →
      unprotectLoop L A f fuel i s vs on rem done = unprotectLoop L A f fuel i s ws on' rem done := by
  obtain ⟨su, hs⟩ := hr.suite
  induction fuel generalizing i s vs on rem done with
  | zero => exact Or.inr fun _ _ _ _ => rfl
  | succ fuel ih =>
    have h22 : s.conn.recordOverhead = 22 := Record.recordOverhead_eq _
    by_cases hge : rem ≥ s.conn.recordOverhead
    case neg =>
      right
      intro ws on' _ _
      unfold unprotectLoop
      rw [if_neg hge, if_neg hge]
    rcases walk_any vs on hc with ⟨hw, hb⟩ | ⟨hno, hw⟩ |
      ⟨hd, payload, rest, vs1, on1, ps, vs', on2, hfr, k1, k2, k3, k4, k5, k6, k7⟩
    · left
      refine ⟨?_, [], hb.at hc (by omega), ?_⟩
      · unfold unprotectLoop
        rw [if_pos hge]
        simp only [hw, exec_bind_error]
      · intro ws on' _ he fuel' hf'
        cases fuel' with
        | zero => omega
        | succ fuel' =>
          unfold unprotectLoop
          rw [if_neg (by rw [he, h22]; simp)]
          exact ⟨_, _, rfl, rfl⟩
    · right
      intro ws on' hcw he
      rw [unprotectLoop_stop L A f fuel i s ws on' rem done hcw hge (he ▸ hno)]
      unfold unprotectLoop
      rw [if_pos hge]
      rcases hw with hw | ⟨hd, v', o', h1, h2⟩
      · simp only [hw, exec_bind_ok, exec_pure]
      · simp only [h1, h2, exec_bind_ok, exec_pure]
    obtain ⟨d, hd1, hd2⟩ := hA s.next payload.length
    have hgood := (hr.good hs).1
    obtain ⟨hsplit, hwhole⟩ := firstRecord_some hfr
    have htail : vs' <:+ vs := (isolate_tail k2).trans (readHeader_tail k1)
    rw [k3] at k2
    have hfl : ∀ ps, flat ps = payload → AllWF ps →
        Record.unprotect L (f i) s.conn (.buf hd) ps (.buf d) =
          Record.openFlat L (f i).key s.conn (.buf hd) payload (.buf d) := by
      intro ps h1 h2
      rw [Record.unprotect_flat L (f i) s.conn (.buf hd) ps (.buf d) hgood.nonce h2 trivial (hf i)
        (by rw [h2.totalLen_eq, h1]; simp only [Iovec.len, hd2]; omega), h1]
    have hhd : hd.length = 5 := by rw [hwhole.header]; rfl
    have hspl : rem = 5 + payload.length + rest.length := by
      rw [hrem, hsplit]
      simp [hhd]
      omega
    -- one iteration, from any cursor with a record in front
    have hstep : ∀ more ws on', Cursor ws on' → ahead ws on' = hd ++ payload ++ more →
        ∃ ws' on'', Cursor ws' on'' ∧ ahead ws' on'' = more ∧ ∀ fuel' rem',
        rem' ≥ s.conn.recordOverhead → 5 + payload.length ≤ rem' →
        unprotectLoop L A f (fuel' + 1) i s ws on' rem' done =
          (do
            let (c, r) ← Record.openFlat L (f i).key s.conn (.buf hd) payload (.buf d)
            let s2 : State := { s with next := s.next + 1, mem := s.mem ++ [.alloc (.heap s.next) payload.length], conn := c, evs := s.evs ++ [.opened r] }
            (if r.code ≠ .ok then
              .ok ((s2.destroy (.heap s.next) (Iovec.buf d).len).destroyAll done, ⟨convertCode r.code, []⟩)
            else unprotectLoop L A f fuel' (i + 1) s2 ws' on'' (rem' - (5 + payload.length))
              (done ++ [(.heap s.next, r.out.bytes.take r.written)]))) := by
      intro more ws on' hcw he
      rcases walk_spec ws on' hcw with ⟨hno, _⟩ | ⟨hd', payload', rest', ws1, on1', qs, ws', on2', hfr', l1, l2, l3, l4, l5, l6, l7⟩
      · rw [he, firstRecord_whole hwhole] at hno; cases hno
      rw [he, firstRecord_whole hwhole] at hfr'
      cases hfr'
      refine ⟨ws', on2', l6, l7, fun fuel' rem' hg' hr' => ?_⟩
      rw [l3] at l2
      conv => lhs; unfold unprotectLoop
      rw [if_pos hg']
      simp only [l1, exec_bind_ok, l3, l2, State.alloc, hd1, State.crypterUnprotect,
        hfl qs l4 l5]
      cases Record.openFlat L (f i).key s.conn (.buf hd) payload (.buf d) with
      | error e => rfl
      | ok x =>
        obtain ⟨c', r⟩ := x
        simp only [exec_bind_ok, exec_pure]
        by_cases hcode : r.code = .ok
        case neg => rw [if_pos hcode, if_pos hcode]
        rw [if_neg (not_not_intro hcode), if_neg (not_not_intro hcode)]
        simp only [subSize_ok (show kHeaderLength + payload.length ≤ rem' by simp [kHeaderLength]; omega), exec_bind_ok, kHeaderLength]
    have hl0 : unprotectLoop L A f (fuel + 1) i s vs on rem done =
          (do
            let (c, r) ← Record.openFlat L (f i).key s.conn (.buf hd) payload (.buf d)
            let s2 : State := { s with next := s.next + 1, mem := s.mem ++ [.alloc (.heap s.next) payload.length], conn := c, evs := s.evs ++ [.opened r] }
            (if r.code ≠ .ok then
              .ok ((s2.destroy (.heap s.next) (Iovec.buf d).len).destroyAll done, ⟨convertCode r.code, []⟩)
            else unprotectLoop L A f fuel (i + 1) s2 vs' on2 (rem - (5 + payload.length))
              (done ++ [(.heap s.next, r.out.bytes.take r.written)]))) := by
      conv => lhs; unfold unprotectLoop
      rw [if_pos hge]
      simp only [k1, exec_bind_ok, k3, k2, State.alloc, hd1, State.crypterUnprotect,
        hfl ps k4 k5]
      cases Record.openFlat L (f i).key s.conn (.buf hd) payload (.buf d) with
      | error e => rfl
      | ok x =>
        obtain ⟨c', r⟩ := x
        simp only [exec_bind_ok, exec_pure]
        by_cases hcode : r.code = .ok
        case neg => rw [if_pos hcode, if_pos hcode]
        rw [if_neg (not_not_intro hcode), if_neg (not_not_intro hcode)]
        simp only [subSize_ok (show kHeaderLength + payload.length ≤ rem by simp [kHeaderLength]; omega), exec_bind_ok, kHeaderLength]
    rw [hl0]
    have hps : ahead vs on = hd ++ payload ++ rest := by simpa using hsplit
    cases hu : Record.openFlat L (f i).key s.conn (.buf hd) payload (.buf d) with
    | error e =>
      right
      intro ws on' hcw he
      obtain ⟨ws', on'', _, _, hx⟩ := hstep rest ws on' hcw (he.trans hps)
      rw [hx fuel rem hge (by omega), hu]
      rfl
    | ok x =>
      obtain ⟨c', r⟩ := x
      simp only [exec_bind_ok]
      by_cases hcode : r.code = .ok
      case neg =>
        right
        intro ws on' hcw he
        obtain ⟨ws', on'', _, _, hx⟩ := hstep rest ws on' hcw (he.trans hps)
        rw [hx fuel rem hge (by omega), hu]
        simp only [exec_bind_ok]
        rw [if_pos hcode, if_pos hcode]
      rw [if_neg (not_not_intro hcode)]
      have hu' := hfl ps k4 k5
      rw [hu] at hu'
      have hrn : Record.Reach L a c' (s.evs ++ [.opened r]) :=
        hr.step (op := .unprotect (f i) (.buf hd) ps (.buf d)) (by simp [Record.step, hu'])
      rcases ih (i + 1) { s with next := s.next + 1, mem := s.mem ++ [.alloc (.heap s.next) payload.length], conn := c', evs := s.evs ++ [.opened r] } vs' on2 (rem - (5 + payload.length)) (done ++ [(.heap s.next, r.out.bytes.take r.written)]) hrn k6 (by rw [k7]; omega) with
        ⟨a1, recs, a2, a3⟩ | hsame
      · left
        refine ⟨a1, (hd, payload) :: recs, a2.back hc k6 htail hwhole
          (by
            have := unprotect_ok_min hu' hcode
            rwa [k5.totalLen_eq, k4] at this) (by rw [k7]; exact hps), ?_⟩
        intro ws on' hcw he fuel' hf'
        cases fuel' with
        | zero => omega
        | succ fuel' =>
          simp only [List.map_cons, List.flatten_cons] at he
          obtain ⟨ws', on'', b1, b2, hx⟩ := hstep _ ws on' hcw he
          have hlen := congrArg List.length he
          simp only [List.length_append, hhd] at hlen
          by_cases hg : (ahead ws on').length ≥ s.conn.recordOverhead
          · rw [hx fuel' _ hg (by omega), hu]
            simp only [exec_bind_ok]
            rw [if_neg (not_not_intro hcode)]
            have := a3 ws' on'' b1 b2 fuel' (by rw [b2]; omega)
            rw [b2] at this
            rw [show (ahead ws on').length - (5 + payload.length) =
              ((recs.map fun r => r.1 ++ r.2).flatten).length by omega]
            exact this
          · unfold unprotectLoop
            rw [if_neg hg]
            exact ⟨_, _, rfl, rfl⟩
      · right
        intro ws on' hcw he
        obtain ⟨ws', on'', b1, b2, hx⟩ := hstep rest ws on' hcw (he.trans hps)
        rw [hx fuel rem hge (by omega), hu]
        simp only [exec_bind_ok]
        rw [if_neg (not_not_intro hcode)]
        exact hsame ws' on'' b1 (b2.trans k7.symm)

/-- The converse: after records that are accepted, an empty buffer inside a header is read. -/
theorem unprotectLoop_blocked {L : Lib} {A : Allocator} {a : Record.CreateArgs}
    (hA : AllocOk A) {f : Nat → Record.Fault} (hf : ∀ j, (f j).evp = .none)
    (recs : List (Bytes × Bytes)) (fuel fuel' i : Nat) (s : State) (pre post ws : List Iovec)
    (part : Bytes) (on on' rem rem' : Nat) (done : List (BufId × Bytes))
    (hr : Record.Reach L a s.conn s.evs)
    (hc : ECursor pre on) (hw : ∀ r ∈ recs, Spec.Whole r.1 r.2)
    (ha : ahead pre on = (recs.map fun r => r.1 ++ r.2).flatten ++ part) (hb : HeaderBegun part)
    (h22 : 22 ≤ part.length + (flat post).length)
    (hrem : rem = (ahead pre on).length + (flat post).length) (hfuel : rem < fuel)
    (hc' : Cursor ws on') (ha' : ahead ws on' = (recs.map fun r => r.1 ++ r.2).flatten)
    (hrem' : rem' = (ahead ws on').length)
    (s' : State) (res : Result)
    (h : unprotectLoop L A f fuel' i s ws on' rem' done = .ok (s', res))
    (hok : res.status = .ok) (h22' : ∀ r ∈ recs, 22 ≤ r.1.length + r.2.length) :
    unprotectLoop L A f fuel i s (pre ++ .buf [] :: post) on rem done = .error .outOfBounds := by
  obtain ⟨su, hs⟩ := hr.suite
  induction recs generalizing fuel fuel' i s pre ws on on' rem rem' done with
  | nil =>
    cases fuel with
    | zero => omega
    | succ fuel =>
      simp only [List.map_nil, List.flatten_nil, List.nil_append] at ha
      have ho : s.conn.recordOverhead = 22 := Record.recordOverhead_eq _
      unfold unprotectLoop
      rw [if_pos (by rw [ho, hrem, ha]; omega)]
      simp only [kHeaderLength, readHeader_blocked 5 0 pre post on hc (by rw [ha]; exact hb.1)
        (by rw [ha]; exact (takeHeader_begun _ hb.1).2 hb), exec_bind_error]
  | cons r recs ih =>
    obtain ⟨hd, payload⟩ := r
    have hwhole : Spec.Whole hd payload := hw (hd, payload) (by simp)
    have hlr : 22 ≤ hd.length + payload.length := h22' (hd, payload) (by simp)
    have hhd : hd.length = 5 := by rw [hwhole.header]; rfl
    have ho : s.conn.recordOverhead = 22 := Record.recordOverhead_eq _
    simp only [List.map_cons, List.flatten_cons, List.append_assoc] at ha ha'
    have hl := congrArg List.length ha
    have hl' := congrArg List.length ha'
    simp only [List.length_append] at hl hl'
    cases fuel with
    | zero => omega
    | succ fuel =>
    cases fuel' with
    | zero => cases h
    | succ fuel' =>
    unfold unprotectLoop at h ⊢
    rw [if_pos (by omega)] at h ⊢
    rcases walk_any pre on hc with ⟨hx, _⟩ | ⟨hno, _⟩ |
      ⟨hd1, payload1, rest, vs1, on1, ps, vs', on2, hfr, k1, k2, k3, k4, k5, k6, k7⟩
    · have := (readHeader_append 5 0 pre (.buf [] :: post) on).1 _ hx
      simp only [kHeaderLength, this, exec_bind_error]
    · rw [ha, ← List.append_assoc, firstRecord_whole hwhole] at hno; cases hno
    rw [ha, ← List.append_assoc, firstRecord_whole hwhole] at hfr
    cases hfr
    rcases walk_spec ws on' hc' with ⟨hno, _⟩ |
      ⟨hd1, payload1, rest', ws1, on1', qs, ws', on2', hfr', l1, l2, l3, l4, l5, l6, l7⟩
    · rw [ha', ← List.append_assoc, firstRecord_whole hwhole] at hno; cases hno
    rw [ha', ← List.append_assoc, firstRecord_whole hwhole] at hfr'
    cases hfr'
    obtain ⟨d, hd1, hd2⟩ := hA s.next payload.length
    have hgood := (hr.good hs).1
    have m1 := (readHeader_append 5 0 pre (.buf [] :: post) on).2 _ _ _ k1
    rw [k3] at k2 l2
    have m2 := isolate_append vs1 (.buf [] :: post) on1 _ _ _ _ k2
    have hfl : ∀ ps, flat ps = payload → AllWF ps →
        Record.unprotect L (f i) s.conn (.buf hd) ps (.buf d) =
          Record.openFlat L (f i).key s.conn (.buf hd) payload (.buf d) := by
      intro ps h1 h2
      rw [Record.unprotect_flat L (f i) s.conn (.buf hd) ps (.buf d) hgood.nonce h2 trivial (hf i)
        (by rw [h2.totalLen_eq, h1]; simp only [Iovec.len, hd2]; omega), h1]
    simp only [m1, exec_bind_ok, k3, m2, State.alloc, hd1, State.crypterUnprotect, hfl ps k4 k5]
    simp only [l1, exec_bind_ok, k3, l2, State.alloc, hd1, State.crypterUnprotect, hfl qs l4 l5] at h
    cases hu : Record.openFlat L (f i).key s.conn (.buf hd) payload (.buf d) with
    | error e => rw [hu] at h; cases h
    | ok x =>
      obtain ⟨c', r⟩ := x
      rw [hu] at h
      simp only [exec_bind_ok, exec_pure] at h ⊢
      by_cases hcode : r.code = .ok
      case neg =>
        rw [if_pos hcode] at h
        cases h
        exact absurd (convertCode_ok.1 hok) hcode
      rw [if_neg (not_not_intro hcode)] at h ⊢
      simp only [subSize_ok (show kHeaderLength + payload.length ≤ rem' by simp only [kHeaderLength]; omega), exec_bind_ok, kHeaderLength] at h
      simp only [subSize_ok (show kHeaderLength + payload.length ≤ rem by simp only [kHeaderLength]; omega), exec_bind_ok, kHeaderLength]
      have hu' := hfl ps k4 k5
      rw [hu] at hu'
      have hrn : Record.Reach L a c' (s.evs ++ [.opened r]) :=
        hr.step (op := .unprotect (f i) (.buf hd) ps (.buf d)) (by simp [Record.step, hu'])
      exact ih fuel fuel' (i + 1) { s with next := s.next + 1, mem := s.mem ++ [.alloc (.heap s.next) payload.length], conn := c', evs := s.evs ++ [.opened r] } vs' ws' on2 on2' _ _ _ hrn k6
        (fun x hx => hw x (by simp [hx])) k7 (by rw [k7, List.length_append]; omega) (by omega)
        l6 l7 (by rw [l7]; omega) h (fun x hx => h22' x (by simp [hx]))

/-! ### Whole calls -/

theorem blockedAt_start {vs : List Iovec} {recs : List (Bytes × Bytes)} :
    BlockedAt vs 0 recs ↔ Spec.EmptyInHeader vs recs := by
  constructor
  · rintro ⟨h1, pre, part, post, h2, _, h3, h4, h5⟩
    exact ⟨h1, pre, part, post, h2, by simpa [ahead] using h3, h4, h5⟩
  · rintro ⟨h1, pre, part, post, h2, h3, h4, h5⟩
    exact ⟨h1, pre, part, post, h2, fun _ => rfl, by simpa [ahead] using h3, h4, h5⟩

theorem nonEmptyBufs_one {b : Bytes} (h : b ≠ []) : NonEmptyBufs [.buf b] := by
  intro v hv
  simp only [List.mem_singleton] at hv
  exact ⟨b, hv, h⟩

theorem unprotect_inside {L : Lib} {A : Allocator} {a : Record.CreateArgs} (hA : AllocOk A)
    {f : Nat → Record.Fault} {s : State} {vs : List Iovec} (hr : Record.Reach L a s.conn s.evs)
    (hv : Bufs vs) {e : UB} (h : unprotect L A f s vs = .error e) :
    e = .negativeShift ∨ e = .outOfBounds ∧ ∃ recs, Spec.EmptyInHeader vs recs := by
  unfold unprotect at h
  simp only at h
  split at h
  · cases h
  have hfl := hv.wf.totalLen_eq
  rcases unprotectLoop_inside hA f _ 0 s vs 0 _ [] hr (ecursor_start hv) (by simp [ahead, hfl])
    (by omega) e h with h | ⟨h, recs, hb⟩
  · exact Or.inl h
  · exact Or.inr ⟨h, recs, blockedAt_start.1 hb⟩

theorem unprotect_empty {L : Lib} {A : Allocator} {a : Record.CreateArgs} (hA : AllocOk A)
    {f : Nat → Record.Fault} (hf : ∀ j, (f j).evp = .none) {s : State} {vs : List Iovec}
    (hr : Record.Reach L a s.conn s.evs) (hv : Bufs vs) :
    (unprotect L A f s vs = .error .outOfBounds ∧ ∃ recs, Spec.EmptyInHeader vs recs ∧
      (recs = [] ∨ ∃ s' bufs, unprotect L A f s [.buf (recs.map fun r => r.1 ++ r.2).flatten] =
        .ok (s', ⟨.ok, bufs⟩))) ∨
    ∀ ws, NonEmptyBufs ws → flat ws = flat vs → unprotect L A f s vs = unprotect L A f s ws := by
  have hfl := hv.wf.totalLen_eq
  have ho : s.conn.recordOverhead = 22 := Record.recordOverhead_eq _
  by_cases hlt : totalLen vs < s.conn.recordOverhead
  · right
    intro ws hw he
    have hl : totalLen ws = totalLen vs := by rw [hw.wf.totalLen_eq, he, hfl]
    unfold unprotect
    simp only [hl]
    rw [if_pos hlt, if_pos hlt]
  rcases unprotectLoop_empty hA hf (totalLen vs + 1) 0 s vs 0 (totalLen vs) [] hr
    (ecursor_start hv) (by simp [ahead, hfl]) with ⟨h1, recs, h2, h3⟩ | h
  · left
    refine ⟨?_, recs, blockedAt_start.1 h2, ?_⟩
    · unfold unprotect
      simp only
      rw [if_neg hlt, h1]
    · cases recs with
      | nil => exact Or.inl rfl
      | cons r recs =>
        right
        have hm := (h2.1 r (by simp)).2
        have hl : 22 ≤ (((r :: recs).map fun r => r.1 ++ r.2).flatten).length := by
          simp only [List.map_cons, List.flatten_cons, List.length_append]; omega
        generalize hb : (((r :: recs).map fun r => r.1 ++ r.2).flatten) = b at hl
        have hne : b ≠ [] := by rintro rfl; simp at hl
        obtain ⟨s', res, h4, h5⟩ := h3 [.buf b] 0 (cursor_start (nonEmptyBufs_one hne))
          (by rw [hb]; simp [ahead, Iovec.bytes]) (b.length + 1) (by simp [ahead, Iovec.bytes])
        obtain ⟨st, bufs⟩ := res
        simp only at h5
        subst h5
        refine ⟨s', bufs, ?_⟩
        have e1 : (ahead [.buf b] 0).length = b.length := by simp [ahead, Iovec.bytes]
        have e2 : totalLen [.buf b] = b.length := by simp [totalLen, Iovec.len]
        unfold unprotect
        simp only [e2]
        rw [if_neg (by omega), ← h4, e1]
  · right
    intro ws hw he
    have hl : totalLen ws = totalLen vs := by rw [hw.wf.totalLen_eq, he, hfl]
    unfold unprotect
    simp only [hl]
    rw [if_neg hlt, if_neg hlt]
    exact h ws 0 (cursor_start hw) (by simp [ahead, he])

theorem unprotect_blocked {L : Lib} {A : Allocator} {a : Record.CreateArgs} (hA : AllocOk A)
    {f : Nat → Record.Fault} (hf : ∀ j, (f j).evp = .none) {s : State} {vs : List Iovec}
    (hr : Record.Reach L a s.conn s.evs) (hv : Bufs vs) {recs : List (Bytes × Bytes)}
    (he : Spec.EmptyInHeader vs recs)
    (hk : recs = [] ∨ ∃ s' bufs, unprotect L A f s [.buf (recs.map fun r => r.1 ++ r.2).flatten] =
        .ok (s', ⟨.ok, bufs⟩)) :
    unprotect L A f s vs = .error .outOfBounds := by
  obtain ⟨h1, pre, part, post, rfl, h3, h4, h5⟩ := he
  have ho : s.conn.recordOverhead = 22 := Record.recordOverhead_eq _
  have hl : totalLen (pre ++ .buf [] :: post) = (flat pre).length + (flat post).length := by
    rw [hv.wf.totalLen_eq]; simp [Iovec.bytes]
  have hc : ECursor pre 0 := ecursor_start fun v hx => hv v (by simp [hx])
  have hg : 22 ≤ (flat pre).length + (flat post).length := by
    rw [h3, List.length_append]; omega
  have key : ∀ fuel' ws, NonEmptyBufs ws → flat ws = (recs.map fun r => r.1 ++ r.2).flatten →
      ∀ s' res, unprotectLoop L A f fuel' 0 s ws 0 (flat ws).length [] = .ok (s', res) →
      res.status = .ok → unprotect L A f s (pre ++ .buf [] :: post) = .error .outOfBounds := by
    intro fuel' ws hw hfw s' res h hok
    unfold unprotect
    simp only
    rw [if_neg (by omega)]
    exact unprotectLoop_blocked hA hf recs _ fuel' 0 s pre post ws part 0 0 _ _ [] hr hc
      (fun r hr => (h1 r hr).1) (by simpa [ahead] using h3) h4 h5 (by simpa [ahead] using hl)
      (by omega) (cursor_start hw) (by simpa [ahead] using hfw) (by simp [ahead]) s' res h hok
      (fun r hr => (h1 r hr).2)
  rcases hk with rfl | ⟨s', bufs, hk⟩
  · refine key 1 [] (by intro v hv; cases hv) rfl s ⟨.ok, []⟩ ?_ rfl
    unfold unprotectLoop
    rw [if_neg (by rw [ho]; simp)]
    rfl
  · generalize hb : (recs.map fun r => r.1 ++ r.2).flatten = b at hk key
    unfold unprotect at hk
    have e2 : totalLen [.buf b] = b.length := by simp [totalLen, Iovec.len]
    have e3 : flat [.buf b] = b := by simp [Iovec.bytes]
    simp only [e2] at hk
    split at hk
    · cases hk
    · next hx =>
      have hne : b ≠ [] := by rintro rfl; simp [ho] at hx
      exact key (b.length + 1) [.buf b] (nonEmptyBufs_one hne) e3 s' ⟨.ok, bufs⟩ (by rw [e3]; exact hk) rfl

/-- The non-allocating `Unprotect`. -/
theorem unprotectInto_empty {L : Lib} {a : Record.CreateArgs} {f : Record.Fault} {s : State}
    {vs : List Iovec} {out : Iovec} (hr : Record.Reach L a s.conn s.evs)
    (hv : Bufs vs) (ho : out.WF) :
    (unprotectInto L f s vs out = .error .outOfBounds ∧ Spec.EmptyInHeader vs []) ∨
    unprotectInto L f s vs out = .error .negativeShift ∨
    ∃ r, unprotectInto L f s vs out = .ok r := by
  obtain ⟨su, hs⟩ := hr.suite
  unfold unprotectInto numberBytesToUnprotect
  have hfl := hv.wf.totalLen_eq
  have h22 : s.conn.recordOverhead = 22 := Record.recordOverhead_eq _
  rw [h22]
  by_cases hlt : totalLen vs < 22
  · rw [if_pos hlt]
    exact Or.inr (Or.inr ⟨_, rfl⟩)
  rw [if_neg hlt]
  split
  · exact Or.inr (Or.inr ⟨_, rfl⟩)
  rcases walk_any vs 0 (ecursor_start hv) with ⟨hw, hb⟩ | ⟨hno, hw⟩ |
    ⟨hd, payload, rest, vs1, on1, ps, vs', on2, hfr, k1, k2, k3, k4, k5, k6, k7⟩
  · left
    refine ⟨by simp only [kHeaderLength, hw, exec_bind_error], ?_⟩
    exact blockedAt_start.1 (hb.at (ecursor_start hv) (by simp [ahead]; omega))
  · right; right
    rcases hw with hw | ⟨hd, v', o', h1, h2⟩
    · simp only [kHeaderLength, hw, exec_bind_ok]; exact ⟨_, rfl⟩
    · simp only [kHeaderLength, h1, h2, exec_bind_ok]; exact ⟨_, rfl⟩
  · right
    simp only [kHeaderLength, k1, k2, exec_bind_ok, State.crypterUnprotect]
    rcases Record.unprotect_safe' (L := L) (f := f) (header := .buf hd) (payload := ps) (out := out)
      (hr.good hs).1 hr.safe k5 ho with he | ⟨c', r, he, _, hlen, _⟩
    · left; rw [he]; rfl
    · right
      simp only [he, exec_bind_ok, exec_pure]
      split
      · exact ⟨_, rfl⟩
      · exact ⟨_, rfl⟩

theorem unprotectInto_blocked {L : Lib} {f : Record.Fault} {s : State}
    {vs : List Iovec} {out : Iovec} (hv : Bufs vs) (he : Spec.EmptyInHeader vs []) :
    unprotectInto L f s vs out = .error .outOfBounds := by
  obtain ⟨_, pre, part, post, rfl, h3, h4, h5⟩ := he
  simp only [List.map_nil, List.flatten_nil, List.nil_append] at h3
  have ho : s.conn.recordOverhead = 22 := Record.recordOverhead_eq _
  have hl : totalLen (pre ++ .buf [] :: post) = (flat pre).length + (flat post).length := by
    rw [hv.wf.totalLen_eq]; simp [Iovec.bytes]
  have hc : ECursor pre 0 := ecursor_start fun v hx => hv v (by simp [hx])
  have ha : ahead pre 0 = part := by simpa [ahead] using h3
  have hk : kHeaderLength = 5 := rfl
  unfold unprotectInto numberBytesToUnprotect
  have hge : ¬ totalLen (pre ++ .buf [] :: post) < 22 := by rw [hl, h3]; omega
  rw [ho]
  simp only [if_neg hge]
  rw [if_neg (by omega)]
  simp only [kHeaderLength, readHeader_blocked 5 0 pre post 0 hc (by rw [ha]; exact h4.1)
        (by rw [ha]; exact (takeHeader_begun _ h4.1).2 h4), exec_bind_error]

theorem unprotectInto_filter {L : Lib} {a : Record.CreateArgs} {f : Record.Fault} {s : State}
    {vs ws : List Iovec} {ob : Bytes} (hr : Record.Reach L a s.conn s.evs)
    (hv : Bufs vs) (hw : NonEmptyBufs ws) (hfw : flat ws = flat vs) (hf : f.evp = .none)
    (hob : numberBytesToUnprotect s (flat vs).length ≤ ob.length)
    (hn : unprotectInto L f s vs (.buf ob) ≠ .error .outOfBounds) :
    unprotectInto L f s vs (.buf ob) = unprotectInto L f s ws (.buf ob) := by
  rw [unprotectInto_flat hr hw hf (by rw [hfw]; exact hob), hfw]
  obtain ⟨su, hsu⟩ := hr.suite
  have hfl := hv.wf.totalLen_eq
  have h22 : s.conn.recordOverhead = 22 := Record.recordOverhead_eq _
  have hk : kHeaderLength = 5 := rfl
  unfold openInto
  unfold unprotectInto at hn ⊢
  unfold numberBytesToUnprotect at hob hn ⊢
  rw [h22] at hob hn ⊢
  rw [hfl] at hn ⊢
  by_cases hlt : (flat vs).length < 22
  · simp only [if_pos hlt, if_true]
  rw [if_neg hlt] at hob hn ⊢
  rw [if_neg (by omega)] at hn
  rw [if_neg (by omega), if_neg hlt]
  rcases walk_any vs 0 (ecursor_start hv) with ⟨hx, _⟩ | ⟨hno, hw⟩ |
    ⟨hd, payload, rest, vs1, on1, ps, vs', on2, hfr, k1, k2, k3, k4, k5, k6, k7⟩
  · simp only [kHeaderLength, hx, exec_bind_error] at hn
    exact absurd rfl hn
  · simp only [ahead, List.drop_zero] at hno
    rw [hno]
    rcases hw with hw | ⟨hd, v', o', h1, h2⟩
    · simp only [hw, exec_bind_ok, exec_pure]
    · simp only [h1, h2, exec_bind_ok, exec_pure]
  · simp only [ahead, List.drop_zero] at hfr
    obtain ⟨g1, g2⟩ := firstRecord_some hfr
    have hl : (flat vs).length = 5 + payload.length + rest.length := by
      rw [g1, g2.header]; simp [Spec.recordHeader]; omega
    rw [hfr]
    simp only [k1, k2, exec_bind_ok, State.crypterUnprotect]
    rw [Record.unprotect_flat L f s.conn (.buf hd) ps (.buf ob) (hr.good hsu).1.nonce k5 trivial hf
      (by rw [k5.totalLen_eq, k4]; simp only [Iovec.len]; omega), k4]
    cases Record.openFlat L f.key s.conn (.buf hd) payload (.buf ob) with
    | error e => rfl
    | ok x => rfl

end S2A.Frame
