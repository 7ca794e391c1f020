import Verif.Spec.Frame
import Verif.Lemmas.Reach
/-
The loops that walk over lists of buffers, in terms of the bytes they denote.
-/
namespace S2A.Frame
open Spec (NonEmptyBufs)

/-- A cursor in a list of non-empty buffers. -/
structure Cursor (vs : List Iovec) (on : Nat) : Prop where
  bufs : NonEmptyBufs vs
  nil : vs = [] → on = 0
  cons : ∀ v ws, vs = v :: ws → on < v.len

/-- The bytes from a cursor on. -/
def ahead (vs : List Iovec) (on : Nat) : Bytes := (flat vs).drop on

theorem _root_.S2A.Spec.NonEmptyBufs.tail {v : Iovec} {vs} (h : NonEmptyBufs (v :: vs)) :
    NonEmptyBufs vs := fun w hw => h w (by simp [hw])

theorem _root_.S2A.Spec.NonEmptyBufs.wf {vs} (h : NonEmptyBufs vs) : AllWF vs := by
  intro v hv
  obtain ⟨d, rfl, _⟩ := h v hv
  trivial

theorem cursor_start {vs} (h : NonEmptyBufs vs) : Cursor vs 0 := by
  refine ⟨h, fun _ => rfl, fun v ws e => ?_⟩
  obtain ⟨d, rfl, hd⟩ := h v (by simp [e])
  simp only [Iovec.len]
  exact List.length_pos_iff.2 hd

theorem cursor_advance {v vs on} (h : NonEmptyBufs (v :: vs)) (hle : on ≤ v.len) :
    Cursor (advance v vs on).1 (advance v vs on).2 ∧
      ahead (advance v vs on).1 (advance v vs on).2 = ahead (v :: vs) on := by
  unfold advance
  by_cases hx : on ≥ v.len
  · rw [if_pos hx]
    refine ⟨cursor_start h.tail, ?_⟩
    have e : on = v.len := by omega
    have hl := (h.wf).head.len_eq
    simp [ahead, e, hl]
  · rw [if_neg hx]
    refine ⟨⟨h, (by intro e; cases e), fun w ws e => ?_⟩, rfl⟩
    cases e
    omega

/-- Take `k` header bytes off a byte string, checking them from position `i` on. -/
def takeHeader : (k i : Nat) → Bytes → Option (Bytes × Bytes)
  | 0, _, b => some ([], b)
  | _ + 1, _, [] => none
  | k + 1, i, x :: b =>
    if headerByteOk i x then (takeHeader k (i + 1) b).map fun r => (x :: r.1, r.2) else none

theorem readHeader_spec (k i : Nat) (vs : List Iovec) (on : Nat) (h : Cursor vs on) :
    (takeHeader k i (ahead vs on) = none ∧
      readHeader k i vs on = .ok (.error .failedPrecondition)) ∨
    ∃ hd vs' on', takeHeader k i (ahead vs on) = some (hd, ahead vs' on') ∧ Cursor vs' on' ∧
      readHeader k i vs on = .ok (.ok (hd, vs', on')) := by
  induction k generalizing i vs on with
  | zero => exact Or.inr ⟨[], vs, on, rfl, h, rfl⟩
  | succ k ih =>
    cases vs with
    | nil =>
      left
      rw [h.nil rfl]
      exact ⟨rfl, rfl⟩
    | cons v vs =>
      obtain ⟨d, rfl, hd⟩ := h.bufs v (by simp)
      have hon := h.cons _ _ rfl
      simp only [Iovec.len] at hon
      have hah : ahead (.buf d :: vs) on = d[on] :: ahead (.buf d :: vs) (on + 1) := by
        have e : flat (.buf d :: vs) = d ++ flat vs := by simp [Iovec.bytes]
        unfold ahead
        rw [e, List.drop_append_of_le_length (by omega), List.drop_append_of_le_length (by omega),
          List.drop_eq_getElem_cons hon]
        rfl
      rw [hah]
      have hb : (Iovec.buf d).byteAt on = .ok d[on] := by
        simp [Iovec.byteAt, List.getElem?_eq_getElem hon]
      unfold readHeader takeHeader
      simp only [hb, exec_bind_ok]
      by_cases hok : headerByteOk i d[on] = true
      · simp only [hok, Bool.not_true, Bool.false_eq_true, if_false, if_true]
        obtain ⟨c1, c2⟩ := cursor_advance h.bufs (on := on + 1) (by simp only [Iovec.len]; omega)
        rw [← c2]
        rcases ih (i + 1) _ _ c1 with ⟨a, b⟩ | ⟨hd', vs', on', a, b, c⟩
        · left
          refine ⟨by rw [a]; rfl, ?_⟩
          simp only [b, exec_bind_ok, exec_pure]
        · right
          refine ⟨d[on] :: hd', vs', on', by rw [a]; rfl, b, ?_⟩
          simp only [c, exec_bind_ok, exec_pure]
      · left
        simp [hok]

theorem isolate_spec (vs : List Iovec) (on n : Nat) (h : Cursor vs on) :
    ((ahead vs on).length < n ∧ isolate vs on n = .ok (.error .failedPrecondition)) ∨
    (n ≤ (ahead vs on).length ∧ ∃ ps vs' on', isolate vs on n = .ok (.ok (ps, vs', on')) ∧
      flat ps = (ahead vs on).take n ∧ AllWF ps ∧ Cursor vs' on' ∧
      ahead vs' on' = (ahead vs on).drop n) := by
  induction vs generalizing on n with
  | nil =>
    cases n with
    | zero => exact Or.inr ⟨Nat.zero_le _, [], [], on, rfl, rfl, allWF_nil, h, by simp⟩
    | succ n =>
      left
      refine ⟨?_, rfl⟩
      simp [ahead]
  | cons v vs ih =>
    cases n with
    | zero =>
      right
      refine ⟨Nat.zero_le _, [], v :: vs, on, rfl, ?_, allWF_nil, h, by simp⟩
      simp
    | succ n =>
      obtain ⟨d, rfl, hd⟩ := h.bufs v (by simp)
      have hon := h.cons _ _ rfl
      have hlen : (Iovec.buf d).len = d.length := rfl
      have hah : ahead (.buf d :: vs) on = d.drop on ++ flat vs := by
        have e : flat (.buf d :: vs) = d ++ flat vs := by simp [Iovec.bytes]
        unfold ahead
        rw [e, List.drop_append_of_le_length (by rw [← hlen]; omega)]
      unfold isolate
      rw [subSize_ok (Nat.le_of_lt hon), exec_bind_ok]
      simp only []
      have hsl : ∀ m, on + m ≤ (Iovec.buf d).len →
          (Iovec.buf d).slice on m = .ok (.buf ((d.drop on).take m)) := by
        intro m hm
        rw [hlen] at hm
        simp [Iovec.slice, hm]
      by_cases hm : n + 1 < (Iovec.buf d).len - on
      · have hmin : min ((Iovec.buf d).len - on) (n + 1) = n + 1 := by omega
        rw [hmin, hsl _ (by omega), exec_bind_ok, if_neg (by omega), exec_pure]
        rw [hlen] at hm hon
        right
        refine ⟨by rw [hah]; simp; omega, _, _, _, rfl, ?_, AllWF.cons trivial allWF_nil, ?_, ?_⟩
        · rw [hah]
          simp only [flat_cons, flat_nil, Iovec.bytes, List.append_nil]
          rw [List.take_append_of_le_length (by simp; omega)]
        · refine ⟨h.bufs, (by intro e; cases e), fun w ws e => ?_⟩
          cases e
          simp only [Iovec.len]; omega
        · unfold ahead; rw [List.drop_drop]
      · have hmin : min ((Iovec.buf d).len - on) (n + 1) = (Iovec.buf d).len - on := by omega
        rw [hmin, hsl _ (by omega), exec_bind_ok, if_pos (by omega), hlen]
        rw [hlen] at hm hon
        have hc := cursor_start h.bufs.tail
        have hv0 : ahead vs 0 = flat vs := by simp [ahead]
        rcases ih 0 (n + 1 - (d.length - on)) hc with ⟨a, b⟩ | ⟨a, ps, vs', on', b, c, e, g, k⟩
        · left
          rw [hv0] at a
          refine ⟨by rw [hah]; simp; omega, ?_⟩
          rw [b]; rfl
        · right
          rw [hv0] at a c k
          refine ⟨by rw [hah]; simp; omega, .buf ((d.drop on).take (d.length - on)) :: ps, vs', on',
            by rw [b]; rfl, ?_, AllWF.cons trivial e, g, ?_⟩
          · have ht : (d.drop on).take (d.length - on) = d.drop on := by
              apply List.take_of_length_le; simp
            rw [hah]
            simp only [flat_cons, Iovec.bytes, c, ht]
            rw [List.take_append, List.take_of_length_le (l := d.drop on) (by simp; omega)]
            simp
          · rw [k, hah, List.drop_append]
            rw [List.drop_of_length_le (l := d.drop on) (by simp; omega)]
            simp

/-- A cursor of `Protect`, in a list of any buffers. -/
def CurLe (vs : List Iovec) (on : Nat) : Prop :=
  (vs = [] → on = 0) ∧ ∀ v ws, vs = v :: ws → on ≤ v.len

theorem curLe_start (vs : List Iovec) : CurLe vs 0 := ⟨fun _ => rfl, fun _ _ _ => Nat.zero_le _⟩

theorem collect_spec (vs : List Iovec) (on n : Nat) (h : CurLe vs on)
    (hn : n + on ≤ totalLen vs) :
    ∃ ps vs' on', collect vs on n = .ok (ps, vs', on') ∧ totalLen ps = n ∧ CurLe vs' on' ∧
      totalLen vs' + n + on = totalLen vs + on' ∧
      (AllWF vs → AllWF ps ∧ AllWF vs' ∧ flat ps = (ahead vs on).take n ∧
        ahead vs' on' = (ahead vs on).drop n) := by
  induction vs generalizing on n with
  | nil =>
    cases n with
    | zero =>
      refine ⟨[], [], on, rfl, rfl, h, by simp, fun _ => ⟨allWF_nil, allWF_nil, rfl, by simp⟩⟩
    | succ n => simp at hn
  | cons v vs ih =>
    cases n with
    | zero =>
      refine ⟨[], v :: vs, on, rfl, rfl, h, by simp, fun hw => ⟨allWF_nil, hw, by simp, by simp⟩⟩
    | succ n =>
      have hon := h.2 _ _ rfl
      unfold collect
      simp only [subSize_ok hon, exec_bind_ok]
      have hsl : ∀ m, on + m ≤ v.len → ∃ p, v.slice on m = .ok p ∧ p.len = m ∧
          (v.WF → p.WF ∧ p.bytes = (v.bytes.drop on).take m) := by
        intro m hm
        cases v with
        | null k =>
          simp only [Iovec.len] at hm
          refine ⟨.null m, by simp [Iovec.slice, hm], rfl, ?_⟩
          intro hw
          simp only [Iovec.WF] at hw ⊢
          exact ⟨by omega, by simp [Iovec.bytes]⟩
        | buf d =>
          simp only [Iovec.len] at hm
          refine ⟨.buf ((d.drop on).take m), by simp [Iovec.slice, hm], ?_, fun _ => ⟨trivial, rfl⟩⟩
          simp [Iovec.len]; omega
      have hah : v.WF → ahead (v :: vs) on = v.bytes.drop on ++ flat vs := by
        intro hw
        unfold ahead
        rw [flat_cons, List.drop_append_of_le_length (by rw [← hw.len_eq]; exact hon)]
      by_cases hm : n + 1 < v.len - on
      · have hmin : min (v.len - on) (n + 1) = n + 1 := by omega
        rw [hmin]
        obtain ⟨p, p1, p2, p3⟩ := hsl (n + 1) (by omega)
        rw [p1, exec_bind_ok, if_neg (by omega)]
        refine ⟨[p], v :: vs, on + (n + 1), rfl, by simp [p2], ⟨(by intro e; cases e), ?_⟩,
          by omega, ?_⟩
        · intro w ws e; cases e; omega
        · intro hw
          obtain ⟨q1, q2⟩ := p3 hw.head
          have hl := hw.head.len_eq
          refine ⟨AllWF.cons q1 allWF_nil, hw, ?_, ?_⟩
          · rw [hah hw.head]
            simp only [flat_cons, flat_nil, List.append_nil, q2]
            rw [List.take_append_of_le_length (by simp; omega)]
          · unfold ahead; rw [List.drop_drop]
      · have hmin : min (v.len - on) (n + 1) = v.len - on := by omega
        rw [hmin]
        obtain ⟨p, p1, p2, p3⟩ := hsl (v.len - on) (by omega)
        rw [p1, exec_bind_ok, if_pos (by omega)]
        simp only [totalLen_cons] at hn
        obtain ⟨ps, vs', on', a, b, c, e, g⟩ := ih 0 (n + 1 - (v.len - on)) (curLe_start vs)
          (by omega)
        rw [a]
        refine ⟨p :: ps, vs', on', rfl, by simp [p2, b]; omega, c, by simp; omega, ?_⟩
        intro hw
        obtain ⟨g1, g2, g3, g4⟩ := g hw.tail
        obtain ⟨q1, q2⟩ := p3 hw.head
        have hl := hw.head.len_eq
        have ht : (v.bytes.drop on).take (v.len - on) = v.bytes.drop on := by
          apply List.take_of_length_le; simp [hl]
        have hv0 : ahead vs 0 = flat vs := by simp [ahead]
        rw [hv0] at g3 g4
        refine ⟨AllWF.cons q1 g1, g2, ?_, ?_⟩
        · rw [hah hw.head]
          simp only [flat_cons, q2, ht, g3]
          rw [List.take_append, List.take_of_length_le (l := v.bytes.drop on) (by simp; omega)]
          simp [hl]
        · rw [g4, hah hw.head, List.drop_append]
          rw [List.drop_of_length_le (l := v.bytes.drop on) (by simp; omega)]
          simp [hl]

/-! ### The first record -/

theorem takeHeader5 (b : Bytes) :
    takeHeader 5 0 b = match b with
      | b0 :: b1 :: b2 :: hi :: lo :: rest =>
        if b0 = 23 ∧ b1 = 3 ∧ b2 = 3 then some ([b0, b1, b2, hi, lo], rest) else none
      | _ => none := by
  match b with
  | [] => rfl
  | [a] => by_cases h : a = 23 <;> simp [takeHeader, headerByteOk, h]
  | [a, a1] => by_cases h : a = 23 <;> by_cases h1 : a1 = 3 <;> simp [takeHeader, headerByteOk, h, h1]
  | [a, a1, a2] =>
    by_cases h : a = 23 <;> by_cases h1 : a1 = 3 <;> by_cases h2 : a2 = 3 <;>
      simp [takeHeader, headerByteOk, h, h1, h2]
  | [a, a1, a2, a3] =>
    by_cases h : a = 23 <;> by_cases h1 : a1 = 3 <;> by_cases h2 : a2 = 3 <;>
      simp [takeHeader, headerByteOk, h, h1, h2]
  | a :: a1 :: a2 :: a3 :: a4 :: rest =>
    by_cases h : a = 23 <;> by_cases h1 : a1 = 3 <;> by_cases h2 : a2 = 3 <;>
      simp [takeHeader, headerByteOk, h, h1, h2]

/-- Reading a header and isolating the payload finds the first record. -/
theorem walk_spec (vs : List Iovec) (on : Nat) (h : Cursor vs on) :
    (Spec.firstRecord (ahead vs on) = none ∧
      (readHeader 5 0 vs on = .ok (.error .failedPrecondition) ∨
       ∃ hd vs' on', readHeader 5 0 vs on = .ok (.ok (hd, vs', on')) ∧
        isolate vs' on' (payloadSize hd) = .ok (.error .failedPrecondition))) ∨
    ∃ hd payload rest vs1 on1 ps vs' on',
      Spec.firstRecord (ahead vs on) = some (hd, payload, rest) ∧
      readHeader 5 0 vs on = .ok (.ok (hd, vs1, on1)) ∧
      isolate vs1 on1 (payloadSize hd) = .ok (.ok (ps, vs', on')) ∧ payloadSize hd = payload.length ∧
      flat ps = payload ∧ AllWF ps ∧ Cursor vs' on' ∧ ahead vs' on' = rest := by
  rcases readHeader_spec 5 0 vs on h with ⟨a, b⟩ | ⟨hd, vs', on', a, b, c⟩
  · left
    refine ⟨?_, Or.inl b⟩
    rw [takeHeader5] at a
    unfold Spec.firstRecord
    split at a
    · next b0 b1 b2 hi lo rest he =>
      rw [he]
      simp only
      rw [if_neg]
      rintro ⟨x, y, z, _⟩
      rw [if_pos ⟨x, y, z⟩] at a
      cases a
    · next hne =>
      split
      · next he => exact absurd he (hne _ _ _ _ _ _)
      · rfl
  · rw [takeHeader5] at a
    split at a
    case h_2 => cases a
    next b0 b1 b2 hi lo rest he =>
    rw [he]
    split at a
    case isFalse => cases a
    next hv =>
    obtain ⟨x, y, z⟩ := hv
    simp only [Option.some.injEq, Prod.mk.injEq] at a
    obtain ⟨rfl, hr⟩ := a
    have hps : payloadSize [b0, b1, b2, hi, lo] = hi.toNat * 256 + lo.toNat := by
      simp [payloadSize, Nat.shiftLeft_eq]
    simp only [Spec.firstRecord, hr]
    rcases isolate_spec vs' on' (payloadSize [b0, b1, b2, hi, lo]) b with
      ⟨e1, e2⟩ | ⟨e1, ps, vs2, on2, e2, e3, e4, e5, e6⟩
    · left
      rw [hps] at e1
      rw [if_neg (by omega)]
      exact ⟨rfl, Or.inr ⟨_, vs', on', c, e2⟩⟩
    · right
      rw [hps] at e1 e3 e6
      rw [if_pos ⟨x, y, z, e1⟩]
      refine ⟨_, _, _, vs', on', ps, vs2, on2, rfl, c, e2, ?_, e3, e4, e5, e6⟩
      rw [hps, List.length_take]; omega

theorem firstRecord_some {b hd payload rest : Bytes}
    (h : Spec.firstRecord b = some (hd, payload, rest)) :
    b = hd ++ payload ++ rest ∧ Spec.Whole hd payload := by
  unfold Spec.firstRecord at h
  split at h
  case h_2 => cases h
  next b0 b1 b2 hi lo r =>
  split at h
  case isFalse => cases h
  next hv =>
  obtain ⟨x, y, z, hl⟩ := hv
  simp only [Option.some.injEq, Prod.mk.injEq] at h
  obtain ⟨rfl, rfl, rfl⟩ := h
  have h1 := hi.toNat_lt
  have h2 := lo.toNat_lt
  refine ⟨by simp, ⟨by simp; omega, ?_⟩⟩
  have e1 : (List.take (hi.toNat * 256 + lo.toNat) r).length = hi.toNat * 256 + lo.toNat := by
    simp; omega
  rw [e1]
  unfold Spec.recordHeader
  subst x y z
  have g1 : UInt8.ofNat ((hi.toNat * 256 + lo.toNat) / 256) = hi := by
    rw [← UInt8.toNat_inj, UInt8.toNat_ofNat']; omega
  have g2 : UInt8.ofNat (hi.toNat * 256 + lo.toNat) = lo := by
    rw [← UInt8.toNat_inj, UInt8.toNat_ofNat']; omega
  rw [g1, g2]

theorem firstRecord_whole {hd payload : Bytes} (h : Spec.Whole hd payload) (rest : Bytes) :
    Spec.firstRecord (hd ++ payload ++ rest) = some (hd, payload, rest) := by
  obtain ⟨h1, rfl⟩ := h
  have e : (UInt8.ofNat (payload.length / 256)).toNat * 256 + (UInt8.ofNat payload.length).toNat =
      payload.length := by
    simp only [UInt8.toNat_ofNat']; omega
  simp only [Spec.recordHeader, List.cons_append, List.nil_append, Spec.firstRecord, e]
  simp

end S2A.Frame
