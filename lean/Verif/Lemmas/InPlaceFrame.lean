import Verif.Lemmas.InPlaceRecord
/-
The frame protector on buffers that share memory.
-/
namespace S2A.InPlace
open Spec (replaced Inside Apart Placed PlacedRecords sealedAt)

theorem slice_view {m : Bytes} {v : Ptr} (hv : Inside m v) (a n : Nat) :
    (v.view m).slice a n = (v.slice a n).map (·.view m) := by
  cases v with
  | null k =>
    simp only [Ptr.view, Iovec.slice, Ptr.slice]
    split <;> rfl
  | stack d =>
    simp only [Ptr.view, Iovec.slice, Ptr.slice]
    split <;> rfl
  | mem off k =>
    simp only [Inside] at hv
    simp only [Ptr.view, Iovec.slice, Ptr.slice, List.length_take, List.length_drop]
    rw [Nat.min_eq_left (by omega)]
    split
    · simp only [Except.map, Except.ok.injEq, Iovec.buf.injEq]
      rw [List.drop_take, List.drop_drop, List.take_take, Nat.min_eq_left (by omega)]
    · rfl

/-- What a slice of a buffer is. -/
theorem slice_ok {v p : Ptr} {a n : Nat} (h : v.slice a n = .ok p) :
    a + n ≤ v.len ∧ p.len = n ∧ (∀ m, Inside m v → Inside m p) ∧
      ∀ off k, p = .mem off k → k = n ∧ ∃ o l, v = .mem o l ∧ off = o + a := by
  cases v with
  | null k =>
    simp only [Ptr.slice] at h
    split at h
    · cases h
      exact ⟨by assumption, rfl, fun _ _ => trivial, fun _ _ h => by cases h⟩
    · cases h
  | stack d =>
    simp only [Ptr.slice] at h
    split at h
    · cases h
      exact ⟨by assumption, by simp [Ptr.len]; omega, fun _ _ => trivial, fun _ _ h => by cases h⟩
    · cases h
  | mem off k =>
    simp only [Ptr.slice] at h
    split at h
    · cases h
      refine ⟨by assumption, rfl, fun m h => ?_, fun _ _ h => ?_⟩
      · simp only [Inside] at *; omega
      · cases h; exact ⟨rfl, _, _, rfl, rfl⟩
    · cases h

theorem readHeader_same {m : Bytes} (k : Nat) : ∀ (i : Nat) (vs : List Ptr) (on : Nat),
    (∀ v ∈ vs, Inside m v) →
    Frame.readHeader k i (vs.map (·.view m)) on =
      (readHeader m k i vs on).map fun x => x.map fun y => (y.1, y.2.1.map (·.view m), y.2.2) := by
  induction k with
  | zero => intros; simp [Frame.readHeader, readHeader, Except.map]
  | succ k ih =>
    intro i vs on hi
    cases vs with
    | nil => simp [Frame.readHeader, readHeader, Except.map]
    | cons v vs =>
      have hv := hi v (by simp)
      have hvs : ∀ w ∈ vs, Inside m w := fun w hw => hi w (by simp [hw])
      rw [List.map_cons, readHeader]
      have hl := view_len hv
      cases hd : v.view m with
      | null n => simp [Frame.readHeader, Except.map]
      | buf d =>
        rw [Frame.readHeader]
        simp only [bind, Except.bind]
        cases (Iovec.buf d).byteAt on with
        | error e => rfl
        | ok b =>
          simp only
          split
          · rfl
          · have hadv : Frame.advance (.buf d) (vs.map (·.view m)) (on + 1) =
                ((advance v vs (on + 1)).1.map (·.view m), (advance v vs (on + 1)).2) := by
              unfold Frame.advance advance
              rw [← hd, hl]
              split <;> simp
            have hin : ∀ w ∈ (advance v vs (on + 1)).1, Inside m w := by
              unfold advance
              split
              · exact hvs
              · exact hi
            rw [hadv]
            simp only
            rw [ih _ _ _ hin]
            cases readHeader m k (i + 1) (advance v vs (on + 1)).1 (advance v vs (on + 1)).2 with
            | error e => rfl
            | ok x =>
              cases x with
              | error e => rfl
              | ok y => rfl

/-- Where the cursor is behind the header, and that the buffers are still at their place. -/
theorem readHeader_placed {m : Bytes} {oo : Nat} (k : Nat) :
    ∀ (i : Nat) (vs : List Ptr) (on p : Nat) {h vs' on'},
    (∀ v ∈ vs, Inside m v) → Placed 5 0 oo p vs →
    readHeader m k i vs on = .ok (.ok (h, vs', on')) →
    (∀ v ∈ vs', Inside m v) ∧ ∃ p', Placed 5 0 oo p' vs' ∧ p' + on' = p + on + k := by
  induction k with
  | zero =>
    intro i vs on p h vs' on' hi hp hr
    simp [readHeader] at hr
    obtain ⟨_, rfl, rfl⟩ := hr
    exact ⟨hi, p, hp, rfl⟩
  | succ k ih =>
    intro i vs on p h vs' on' hi hp hr
    cases vs with
    | nil => simp [readHeader] at hr
    | cons v vs =>
      rw [readHeader] at hr
      have hl := view_len (hi v (by simp))
      cases hd : v.view m with
      | null n => rw [hd] at hr; cases hr
      | buf d =>
        rw [hd] at hr hl
        simp only [HalfConn.exec_bind_eq_ok] at hr
        obtain ⟨b, hb, hr⟩ := hr
        have hon : on < v.len := by
          simp only [Iovec.byteAt] at hb
          split at hb
          · rename_i x hx
            have := (List.getElem?_eq_some_iff.1 hx).1
            simp only [Iovec.len] at hl
            omega
          · cases hb
        split at hr
        · cases hr
        · simp only [HalfConn.exec_bind_eq_ok] at hr
          obtain ⟨x, hx, hr⟩ := hr
          cases x with
          | error e => cases hr
          | ok x =>
            obtain ⟨h', vs'', on''⟩ := x
            cases hr
            unfold advance at hx
            by_cases hc : on + 1 ≥ v.len
            · rw [if_pos hc] at hx
              obtain ⟨h1, p', h2, h3⟩ := ih _ _ _ (p + v.len)
                (fun w hw => hi w (by simp [hw])) hp.2 hx
              exact ⟨h1, p', h2, by omega⟩
            · rw [if_neg hc] at hx
              obtain ⟨h1, p', h2, h3⟩ := ih _ _ _ p hi hp hx
              exact ⟨h1, p', h2, by omega⟩

theorem isolate_same {m : Bytes} (vs : List Ptr) : ∀ (on rem : Nat), (∀ v ∈ vs, Inside m v) →
    Frame.isolate (vs.map (·.view m)) on rem =
      (isolate vs on rem).map fun x =>
        x.map fun y => (y.1.map (·.view m), y.2.1.map (·.view m), y.2.2) := by
  induction vs with
  | nil =>
    intro on rem _
    cases rem <;> simp [Frame.isolate, isolate, Except.map]
  | cons v vs ih =>
    intro on rem hi
    have hv := hi v (by simp)
    have hvs : ∀ w ∈ vs, Inside m w := fun w hw => hi w (by simp [hw])
    cases rem with
    | zero => simp [Frame.isolate, isolate, Except.map]
    | succ rem =>
      rw [List.map_cons]
      have hl := view_len hv
      have hs := slice_view hv
      have key : ∀ d, v.view m = .buf d →
          Frame.isolate (v.view m :: vs.map (·.view m)) on (rem + 1) =
          (isolate (v :: vs) on (rem + 1)).map fun x =>
            x.map fun y => (y.1.map (·.view m), y.2.1.map (·.view m), y.2.2) := by
        intro d hd
        have : isolate (v :: vs) on (rem + 1) = (do
            let left ← subSize v.len on
            let n := min left (rem + 1)
            let piece ← v.slice on n
            if n + on = v.len then do
              match ← isolate vs 0 (rem + 1 - n) with
              | .error e => return .error e
              | .ok (ps, vs, on) => return .ok (piece :: ps, vs, on)
            else return .ok ([piece], v :: vs, on + n)) := by
          cases v with
          | null n => simp [Ptr.view] at hd
          | stack d => rw [isolate] <;> first | rfl | (intro _ h; cases h)
          | mem a n => rw [isolate] <;> first | rfl | (intro _ h; cases h)
        rw [this]
        rw [hd, Frame.isolate, ← hd, hl]
        simp only [bind, Except.bind]
        cases subSize v.len on with
        | error e => rfl
        | ok left =>
          simp only [hs]
          cases v.slice on (min left (rem + 1)) with
          | error e => rfl
          | ok piece =>
            simp only [Except.map]
            by_cases hc : min left (rem + 1) + on = v.len
            · rw [if_pos hc, if_pos hc, ih _ _ hvs]
              cases isolate vs 0 (rem + 1 - min left (rem + 1)) with
              | error e => rfl
              | ok x =>
                cases x with
                | error e => rfl
                | ok y => rfl
            · rw [if_neg hc, if_neg hc]; rfl
      cases v with
      | null n => simp [Ptr.view, Frame.isolate, isolate, Except.map]
      | stack d => exact key d rfl
      | mem a n => exact key _ rfl

theorem isolate_placed {m : Bytes} {oo : Nat} (vs : List Ptr) :
    ∀ (on rem p q : Nat) {ps vs' on'}, (∀ v ∈ vs, Inside m v) → Placed 5 0 oo p vs →
    p + on = 5 + q → isolate vs on rem = .ok (.ok (ps, vs', on')) →
    (∀ v ∈ ps, Inside m v) ∧ Placed 0 0 oo q ps := by
  induction vs with
  | nil =>
    intro on rem p q ps vs' on' hi hp hq h
    cases rem with
    | zero => simp [isolate] at h; obtain ⟨rfl, _⟩ := h; exact ⟨by simp, trivial⟩
    | succ rem => simp [isolate] at h
  | cons v vs ih =>
    intro on rem p q ps vs' on' hi hp hq h
    cases rem with
    | zero => simp [isolate] at h; obtain ⟨rfl, _⟩ := h; exact ⟨by simp, trivial⟩
    | succ rem =>
      have hv := hi v (by simp)
      have hvs : ∀ w ∈ vs, Inside m w := fun w hw => hi w (by simp [hw])
      have key : (do
            let left ← subSize v.len on
            let n := min left (rem + 1)
            let piece ← v.slice on n
            if n + on = v.len then do
              match ← isolate vs 0 (rem + 1 - n) with
              | .error e => return .error e
              | .ok (ps, vs, on) => return .ok (piece :: ps, vs, on)
            else return .ok ([piece], v :: vs, on + n)) =
              (.ok (.ok (ps, vs', on')) : Exec (Except StatusCode (List Ptr × List Ptr × Nat))) →
          (∀ v ∈ ps, Inside m v) ∧ Placed 0 0 oo q ps := by
        intro h
        simp only [HalfConn.exec_bind_eq_ok] at h
        obtain ⟨left, hleft, piece, hpc, h⟩ := h
        obtain ⟨h1, h2, h3, h4⟩ := slice_ok hpc
        have hhead : ∀ tl, Placed 0 0 oo (q + piece.len) tl → Placed 0 0 oo q (piece :: tl) := by
          intro tl ht
          refine ⟨?_, ht⟩
          cases piece with
          | null n => trivial
          | stack d => trivial
          | mem a n =>
            obtain ⟨rfl, o, l, rfl, rfl⟩ := h4 _ _ rfl
            have hp := hp.1
            simp only [Ptr.len] at h1 h2
            simp only [Apart] at hp ⊢
            omega
        split at h
        · simp only [HalfConn.exec_bind_eq_ok] at h
          obtain ⟨x, hx, h⟩ := h
          cases x with
          | error e => cases h
          | ok x =>
            obtain ⟨ps', vs'', on''⟩ := x
            cases h
            obtain ⟨i1, i2⟩ := ih 0 _ (p + v.len) (q + piece.len) hvs hp.2 (by omega) hx
            refine ⟨fun w hw => ?_, hhead _ i2⟩
            rcases List.mem_cons.1 hw with rfl | hw
            · exact h3 m hv
            · exact i1 w hw
        · cases h
          refine ⟨fun w hw => ?_, hhead [] trivial⟩
          rcases List.mem_cons.1 hw with rfl | hw
          · exact h3 m hv
          · cases hw
      apply key
      rw [← h]
      cases v with
      | null n => simp [isolate] at h
      | stack d => rw [isolate] <;> first | rfl | (intro _ h; cases h)
      | mem a n => rw [isolate] <;> first | rfl | (intro _ h; cases h)

theorem unprotectInto_same (L : Lib) (f : Record.Fault) (s : Frame.State) (m : Bytes)
    (vs : List Ptr) (oo on : Nat) (hm : oo + on ≤ m.length) (hi : ∀ v ∈ vs, Inside m v)
    (hp : Placed 5 0 oo 0 vs) :
    unprotectInto L f s m vs oo on =
      (Frame.unprotectInto L f s (vs.map (·.view m)) (.buf (get m oo on))).map fun x =>
        (replaced m oo x.2.2.2.bytes, x.1, x.2.1, x.2.2.1) := by
  have hg := get_length hm
  have hr := replaced_get hm
  unfold unprotectInto Frame.unprotectInto
  rw [total_view hi, readHeader_same _ _ _ _ hi]
  have hlen : (Iovec.buf (get m oo on)).len = on := hg
  split
  · simp [Except.map, bytes_buf, hr, hlen]
  cases hH : readHeader m Frame.kHeaderLength 0 vs 0 with
  | error e => rfl
  | ok x =>
    cases x with
    | error e => simp [Except.map, bytes_buf, hr, bind, Except.bind, pure, Except.pure]
    | ok y =>
      obtain ⟨header, vs', at'⟩ := y
      obtain ⟨hi', p, hp', hpos⟩ := readHeader_placed _ _ _ _ 0 hi hp hH
      simp only [Except.map, bind, Except.bind]
      rw [isolate_same _ _ _ hi']
      cases hI : isolate vs' at' (Frame.payloadSize header) with
      | error e => rfl
      | ok x =>
        cases x with
        | error e => simp [Except.map, bytes_buf, hr, pure, Except.pure]
        | ok y =>
          obtain ⟨payload, vs'', at''⟩ := y
          obtain ⟨hi2, hp2⟩ := isolate_placed vs' at' _ p 0 hi' hp'
            (by rw [hpos]; simp [Frame.kHeaderLength]) hI
          simp only [Except.map, Frame.State.crypterUnprotect]
          rw [recordUnprotect_same L f s.conn header m payload oo on hm hi2 hp2]
          cases Record.unprotect L f s.conn (.buf header) (payload.map (·.view m))
              (.buf (get m oo on)) with
          | error e => rfl
          | ok x =>
            simp only [Except.map, bind, Except.bind, pure, Except.pure]
            split <;> rfl

theorem collect_same {m : Bytes} (vs : List Ptr) : ∀ (on need : Nat), (∀ v ∈ vs, Inside m v) →
    Frame.collect (vs.map (·.view m)) on need =
      (collect vs on need).map fun x => (x.1.map (·.view m), x.2.1.map (·.view m), x.2.2) := by
  induction vs with
  | nil =>
    intro on need _
    cases need <;> simp [Frame.collect, collect, Except.map]
  | cons v vs ih =>
    intro on need hi
    have hv := hi v (by simp)
    have hvs : ∀ w ∈ vs, Inside m w := fun w hw => hi w (by simp [hw])
    cases need with
    | zero => simp [Frame.collect, collect, Except.map]
    | succ need =>
      rw [List.map_cons, Frame.collect, collect, view_len hv]
      simp only [bind, Except.bind]
      cases subSize v.len on with
      | error e => rfl
      | ok left =>
        simp only [slice_view hv]
        cases v.slice on (min left (need + 1)) with
        | error e => rfl
        | ok piece =>
          simp only [Except.map]
          by_cases hc : on + min left (need + 1) ≥ v.len
          · rw [if_pos hc, if_pos hc, ih _ _ hvs]
            cases collect vs 0 (need + 1 - min left (need + 1)) with
            | error e => rfl
            | ok y => rfl
          · rw [if_neg hc, if_neg hc]; rfl

theorem sealedAt_mono {a b : Nat} (h : a ≤ b) : sealedAt a ≤ sealedAt b := by
  unfold sealedAt; omega

theorem sealedAt_in {k q : Nat} (h : q < 16384) : sealedAt (16384 * k + q) = 16406 * k + 5 + q := by
  unfold sealedAt; omega

/-- A buffer is apart from the records before the `k`-th. -/
def Behind (oo k : Nat) (v : Ptr) : Prop :=
  ∀ off n, v = .mem off n → n = 0 ∨ off + n ≤ oo ∨ oo + 16406 * k ≤ off

theorem collect_placed {m : Bytes} {oo k : Nat} (vs : List Ptr) :
    ∀ (on need p q : Nat) {ps vs' on'}, (∀ v ∈ vs, Inside m v) → PlacedRecords oo p vs →
    p + on = 16384 * k + q → q + need ≤ 16384 → collect vs on need = .ok (ps, vs', on') →
    (∀ v ∈ ps, Inside m v ∧ Behind oo k v) ∧ (∀ v ∈ vs', Inside m v) ∧
      Placed 0 5 (oo + 16406 * k) q ps ∧ ∃ p', PlacedRecords oo p' vs' ∧ p' + on' = p + on + need := by
  induction vs with
  | nil =>
    intro on need p q ps vs' on' hi hp hq hn h
    cases need with
    | zero =>
      simp [collect] at h
      obtain ⟨rfl, rfl, rfl⟩ := h
      exact ⟨by simp, by simp, trivial, p, trivial, rfl⟩
    | succ need => simp [collect] at h
  | cons v vs ih =>
    intro on need p q ps vs' on' hi hp hq hn h
    cases need with
    | zero =>
      simp [collect] at h
      obtain ⟨rfl, rfl, rfl⟩ := h
      exact ⟨by simp, hi, trivial, p, hp, rfl⟩
    | succ need =>
      have hv := hi v (by simp)
      have hvs : ∀ w ∈ vs, Inside m w := fun w hw => hi w (by simp [hw])
      rw [collect] at h
      simp only [HalfConn.exec_bind_eq_ok] at h
      obtain ⟨left, hleft, piece, hpc, h⟩ := h
      obtain ⟨hl1, hl2⟩ := subSize_ok hleft
      obtain ⟨h1, h2, h3, h4⟩ := slice_ok hpc
      have hplace : ∀ a n, piece = .mem a n →
          n = 0 ∨ a + 0 = oo + 16406 * k + 5 + q ∨
            Apart a n oo (16406 * k + 5 + q + n) := by
        rintro a n rfl
        obtain ⟨rfl, o, l, rfl, rfl⟩ := h4 _ _ rfl
        have hp := hp.1
        simp only [Ptr.len] at h1 h2 hl1 hl2
        by_cases hz : min left (need + 1) = 0
        · exact .inl hz
        rcases hp with hp | ⟨hp, hp'⟩ | hp
        · omega
        · right; left
          unfold sealedAt at hp
          omega
        · right; right
          have e1 := sealedAt_mono (show 16384 * k + (q + min left (need + 1) - 1) ≤ p + l - 1 by omega)
          rw [sealedAt_in (by omega)] at e1
          simp only [Apart] at hp ⊢
          omega
      have hhead : ∀ tl, Placed 0 5 (oo + 16406 * k) (q + piece.len) tl →
          Placed 0 5 (oo + 16406 * k) q (piece :: tl) := by
        intro tl ht
        refine ⟨?_, ht⟩
        cases piece with
        | null n => trivial
        | stack d => trivial
        | mem a n =>
          have := hplace a n rfl
          simp only [Apart] at this ⊢
          omega
      have hin : Inside m piece ∧ Behind oo k piece := by
        refine ⟨h3 m hv, fun a n e => ?_⟩
        have := hplace a n e
        simp only [Apart] at this
        omega
      split at h
      · simp only [HalfConn.exec_bind_eq_ok] at h
        obtain ⟨⟨ps', vs'', on''⟩, hx, h⟩ := h
        cases h
        obtain ⟨i1, i2, i3, p', i4, i5⟩ := ih 0 _ (p + v.len) (q + piece.len) hvs hp.2 (by omega)
          (by omega) hx
        refine ⟨fun w hw => ?_, i2, hhead _ i3, p', i4, by simp only; omega⟩
        rcases List.mem_cons.1 hw with rfl | hw
        · exact hin
        · exact i1 w hw
      · cases h
        refine ⟨fun w hw => ?_, hi, hhead [] trivial, p, hp, by omega⟩
        rcases List.mem_cons.1 hw with rfl | hw
        · exact hin
        · cases hw

theorem behind_views {m m' : Bytes} {oo k : Nat} (ha : Agree m m' oo (16406 * k)) {ps : List Ptr}
    (h : ∀ v ∈ ps, Behind oo k v) : ps.map (·.view m) = ps.map (·.view m') := by
  apply List.map_congr_left
  intro v hv
  apply view_congr
  rintro a n rfl i h1 h2
  have := h _ hv a n rfl
  apply ha
  omega

theorem protectLoop_same (L : Lib) (f : Nat → EvpFault) (m : Bytes) (oo on : Nat)
    (hm : oo + on ≤ m.length) (fuel : Nat) :
    ∀ (i : Nat) (s : Frame.State) (out : Bytes) (vs : List Ptr) (at' : Nat) (first : Bool)
      (rem idx k p : Nat), out.length = on → (∀ v ∈ vs, Inside m v) → PlacedRecords oo p vs →
      p + at' = 16384 * k → idx = 16406 * k → Agree (replaced m oo out) m oo idx →
      protectLoop L f oo on fuel i s (replaced m oo out) vs at' first rem idx =
        (Frame.protectLoop L f .caller fuel i s (vs.map (·.view m)) at' first rem idx (.buf out)).map
          fun x => (replaced m oo x.2.2.bytes, x.1, x.2.1) := by
  induction fuel with
  | zero => intros; rfl
  | succ fuel ih =>
    intro i s out vs at' first rem idx k p hl hi hp hpk hidx ha
    rw [protectLoop, Frame.protectLoop]
    by_cases hg : (first || decide (rem > 0)) = true
    · rw [if_pos hg, if_pos hg]
      generalize hn : (if rem < Frame.kMaxPlaintext then rem else Frame.kMaxPlaintext) = n
      have hn1 : n ≤ 16384 := by subst hn; simp only [Frame.kMaxPlaintext]; split <;> omega
      have hn2 : n = 16384 ∨ rem - n = 0 := by
        subst hn; simp only [Frame.kMaxPlaintext]; split <;> omega
      simp only [bind, Except.bind]
      rw [collect_same _ _ _ hi]
      cases hC : collect vs at' n with
      | error e => rfl
      | ok x =>
        obtain ⟨ps, vs', at''⟩ := x
        obtain ⟨c1, c2, c3, p', c4, c5⟩ := collect_placed (m := m) (oo := oo) (k := k) vs at' n p 0 hi hp
          (by omega) (by omega) hC
        have hlen : (Iovec.buf out).len = on := hl
        simp only [Except.map, hlen]
        cases hS : subSize on idx with
        | error e => rfl
        | ok room =>
          obtain ⟨s1, s2⟩ := subSize_ok hS
          have hsl : (Iovec.buf out).slice idx room = .ok (.buf (get out idx room)) := by
            simp only [Iovec.slice]
            rw [if_pos (by omega)]
            rfl
          have hmo : oo + out.length ≤ m.length := by omega
          have hsame := recordProtect_same L (f i) s.conn .applicationData (replaced m oo out) ps
            (oo + idx) room (by rw [replaced_length hmo]; omega)
            (fun v hv => inside_replaced hmo (c1 v hv).1) (by rw [hidx]; exact c3)
          rw [behind_views (by rw [← hidx]; exact ha) (fun v hv => (c1 v hv).2),
            get_sub hmo _ _ (by omega)] at hsame
          simp only [hsl, Frame.State.crypterProtect, hsame]
          cases hP : Record.protect L (f i) s.conn .applicationData (ps.map (·.view m))
              (.buf (get out idx room)) with
          | error e => rfl
          | ok x =>
            obtain ⟨c, r⟩ := x
            obtain ⟨_, k1, k2⟩ := protect_kept hP
            rw [get_length (by omega)] at k1
            have hrs := replaced_sub (m := m) (ro := oo) (rb := out) (w := r.out.bytes) (a := idx)
              hmo (by omega)
            have hol : (out.take idx ++ r.out.bytes).length = on := by simp; omega
            have hol' : (Iovec.buf (out.take idx ++ r.out.bytes)).len = on := hol
            simp only [Except.map, bind, Except.bind, pure, Except.pure, Iovec.setBytes, bytes_buf,
              hol', hrs]
            by_cases h1 : r.code ≠ .ok
            · rw [if_pos h1, if_pos h1]; rfl
            rw [if_neg h1, if_neg h1]
            by_cases h2 : r.written ≠ n + c.recordOverhead
            · rw [if_pos h2, if_pos h2]; rfl
            rw [if_neg h2, if_neg h2]
            have h1 : r.code = .ok := Classical.not_not.1 h1
            have h2 : r.written = n + 22 := Classical.not_not.1 h2
            by_cases h3 : rem - n = 0
            · rw [h3]
              cases fuel with
              | zero => rfl
              | succ fuel => simp [protectLoop, Frame.protectLoop, bytes_buf, pure, Except.pure]
            · have hn3 : n = 16384 := by omega
              have := ih (i + 1) { s with conn := c, evs := s.evs ++ [.sealed r] }
                (out.take idx ++ r.out.bytes) vs' at'' false (rem - n) (idx + r.written) (k + 1) p'
                hol c2 c4 (by omega) (by omega) ?_
              · exact this
              · intro j hj
                rw [replaced_get? (by omega), hol]
                have hj' := ha j (by omega)
                rw [replaced_get? hmo, hl] at hj'
                by_cases hc : oo ≤ j ∧ j < oo + on
                · rw [if_pos hc] at hj' ⊢
                  rw [← hj', List.getElem?_append_right (by simp; omega)]
                  have := k2 h1 (j - oo - idx) (by omega)
                  simp only [List.length_take, Nat.min_eq_left (by omega : idx ≤ out.length)]
                  rw [this, get_get?, if_pos (by omega)]
                  congr 1; omega
                · rw [if_neg hc]
    · rw [if_neg hg, if_neg hg]
      rfl

theorem protectInto_same (L : Lib) (f : Nat → EvpFault) (s : Frame.State) (m : Bytes)
    (vs : List Ptr) (oo on : Nat) (hm : oo + on ≤ m.length) (hi : ∀ v ∈ vs, Inside m v)
    (hp : PlacedRecords oo 0 vs) :
    protectInto L f s m vs oo on =
      (Frame.protectInto L f s .caller (vs.map (·.view m)) (.buf (get m oo on))).map fun x =>
        (replaced m oo x.2.2.bytes, x.1, x.2.1) := by
  have hr := replaced_get hm
  unfold protectInto Frame.protectInto
  rw [total_view hi]
  have := protectLoop_same L f m oo on hm ((vs.map Ptr.len).sum + 2) 0 s (get m oo on) vs 0
    (decide ((vs.map Ptr.len).sum = 0)) (vs.map Ptr.len).sum 0 0 0 (get_length hm) hi hp rfl rfl
    (by rw [hr]; intro i _; rfl)
  rw [hr] at this
  exact this

end S2A.InPlace
