import Verif.Lemmas.Says
/-
What is said in a call on a frame protector is what the reference machine says.
-/
namespace S2A.Frame
open HalfConn (exec_bind_eq_ok)
open Spec (Machine AllocOk silence sentence fragments recordCount)
open Record (Acts)

theorem protectT_plain {L : Lib} {q : String} {s s' : State} {m : Machine} {pt : List Iovec}
    {record : Iovec} {r : Record.Result} {said : Said} (a : Acts L s.conn m) (hp : AllWF pt)
    (ho : record.WF) (h : s.crypterProtectT L .none q pt record = .ok ((s', r), said)) :
    said = m.sendSays .applicationData (flat pt) record.len ∧
    Record.protect L .none s.conn .applicationData pt record = .ok (s'.conn, r) ∧
    r.code = (m.send L .applicationData (flat pt) record.len).2.1 ∧
    r.out.bytes.take r.written = (m.send L .applicationData (flat pt) record.len).2.2 ∧
    Acts L s'.conn (m.send L .applicationData (flat pt) record.len).1 := by
  unfold State.crypterProtectT at h
  simp only [exec_bind_eq_ok] at h
  obtain ⟨⟨⟨c, r⟩, sd⟩, h1, h2⟩ := h
  cases h2
  have h3 : Record.protect L .none s.conn .applicationData pt record = .ok (c, r) := by
    rw [← Record.protectT_mute L .none q, h1]; rfl
  refine ⟨Record.send_says a hp ho h1, h3, ?_⟩
  have hg := Record.acts_send (rt := .applicationData) a hp ho
  rw [h3] at hg
  generalize m.send L .applicationData (flat pt) record.len = z at hg
  obtain ⟨m1, code, w⟩ := z
  obtain ⟨c0, r0, q1, q2, q3, q4⟩ := hg
  cases q1
  exact ⟨q2, q3, q4⟩

theorem sendAllSays_cons {L : Lib} {m m' : Machine} {x : Bytes} {xs : List Bytes} {room : Nat}
    {code w} (h : m.send L .applicationData x room = (m', code, w)) :
    m.sendAllSays L (x :: xs) room =
      if code = .ok then m'.sendAllSays L xs (room - w.length)
      else ⟨(m.sendSays .applicationData x room).log ++
        ["Failed to protect: " ++ (m.sendSays .applicationData x room).message],
        (m.sendSays .applicationData x room).message⟩ := by
  rw [Machine.sendAllSays, h]
  cases code <;> simp only [if_true, reduceCtorEq, if_false]

theorem protectLoop_says {L : Lib} {f : Nat → EvpFault} (hf : ∀ j, f j = .none)
    {errs : Nat → String} {id : BufId}
    (fuel i : Nat) (s : State) (m : Machine)
    (vs : List Iovec) (on : Nat) (first : Bool) (rem idx : Nat) (ob : Bytes) (log : List String)
    {y : State × StatusCode × Iovec} {said : Said}
    (a : Acts L s.conn m) (hw : AllWF vs) (hc : CurLe vs on) (hrem : rem + on = totalLen vs)
    (hfuel : rem + (if first then 1 else 0) < fuel) (hfirst : first = true → rem = 0)
    (hgo : first = true ∨ rem > 0) (hidx : idx ≤ ob.length)
    (h : protectLoopT L f errs id fuel i s vs on first rem idx (.buf ob) log = .ok (y, said)) :
    said = ⟨log ++ (m.sendAllSays L (fragments (ahead vs on)) (ob.length - idx)).log,
      (m.sendAllSays L (fragments (ahead vs on)) (ob.length - idx)).message⟩ := by
  induction fuel generalizing i s m vs on first rem idx ob log with
  | zero => omega
  | succ fuel ih =>
    unfold protectLoopT at h
    rw [if_pos (by simpa using hgo)] at h
    have hN : ∃ N, N = (if rem < kMaxPlaintext then rem else kMaxPlaintext) ∧ N ≤ rem ∧ N ≤ 16384 ∧
        (rem ≤ 16384 → N = rem) ∧ (16384 < rem → N = 16384) := by
      refine ⟨_, rfl, ?_⟩
      simp only [kMaxPlaintext]
      split <;> refine ⟨?_, ?_, ?_, ?_⟩ <;> omega
    obtain ⟨N, hNe, hN1, hN2, hN3, hN4⟩ := hN
    simp only [← hNe] at h
    obtain ⟨ps, vs', on', k1, k2, k3, k4, k5⟩ := collect_spec vs on N hc (by omega)
    obtain ⟨k6, k7, k8, k9⟩ := k5 hw
    rw [k1] at h
    simp only [exec_bind_ok, Iovec.len, subSize_ok hidx] at h
    have hsl : (Iovec.buf ob).slice idx (ob.length - idx) = .ok (.buf (ob.drop idx)) := by
      simp only [Iovec.slice]
      rw [if_pos (by omega), List.take_of_length_le (by simp)]
    rw [hsl, exec_bind_ok, hf i] at h
    simp only [exec_bind_eq_ok] at h
    obtain ⟨⟨⟨s1, r⟩, sd⟩, hz, h⟩ := h
    obtain ⟨t1, t2, t3, t4, t5⟩ := protectT_plain (record := .buf (ob.drop idx)) a k6 trivial hz
    obtain ⟨c0, r0, e1, e2⟩ := Record.protect_spec L .none s.conn .applicationData ps (ob.drop idx)
      a.out.good.nonce
    rw [t2] at e1
    cases e1
    have hlenB : (ahead vs on).length = rem := by
      unfold ahead; rw [List.length_drop, ← hw.totalLen_eq]; omega
    have hfr : fragments (ahead vs on) = flat ps ::
        (if rem ≤ 16384 then [] else fragments (ahead vs' on')) := by
      by_cases hle : rem ≤ 16384
      · rw [fragments_short (by omega), if_pos hle, k8, hN3 hle,
          List.take_of_length_le (by omega)]
      · rw [fragments_long (by omega), if_neg hle, k8, k9, hN4 (by omega)]
    have hroom : (Iovec.buf (ob.drop idx)).len = ob.length - idx := by simp [Iovec.len]
    rw [hroom] at t1 t3 t4 t5
    generalize hy : m.send L .applicationData (flat ps) (ob.length - idx) = z at t3 t4 t5
    obtain ⟨m1, code, w⟩ := z
    have hsa := sendAllSays_cons (L := L) (m := m) (x := flat ps)
      (xs := if rem ≤ 16384 then [] else fragments (ahead vs' on')) (room := ob.length - idx) hy
    rw [← hfr] at hsa
    simp only at t3 t4 t5
    subst t3
    by_cases hcode : r.code = .ok
    case neg =>
      rw [if_neg hcode] at hsa
      rw [if_pos (show r.code ≠ .ok from hcode)] at h
      rw [hsa, ← t1]
      cases h
      simp only [List.append_assoc]
    obtain ⟨S, p1, p2, p3, p4⟩ := Record.protectSpec_ok e2 hcode
    rw [k2] at p1 p2 p3 p4
    rw [if_pos hcode] at hsa
    have hro := Record.recordOverhead_eq s1.conn
    rw [if_neg (not_not_intro hcode), if_neg (by rw [hro]; exact not_not_intro p2)] at h
    have hsd : sd = silence := by
      rw [t1]
      unfold Machine.send at hy
      unfold Machine.sendSays
      by_cases g1 : 16384 < (flat ps).length ∨ ob.length - idx < (flat ps).length + 22
      · rw [if_pos g1] at hy
        rw [hcode] at hy
        cases hy
      rw [if_neg g1] at hy
      rw [if_neg (by omega), if_neg (by omega)]
      simp only [Spec.contentType] at hy ⊢
      by_cases g2 : m.outDead = true ∨ m.out.seq = 2 ^ 64
      · rw [if_pos g2] at hy
        rw [hcode] at hy
        cases hy
      · rw [if_neg g2]
    rw [hsd] at h
    have hwS : w = S := by
      rw [← t4, p2, p3, ← p1]
      simp [Iovec.bytes]
    subst hwS
    have hob : r.out.bytes = w ++ ob.drop (idx + (N + 22)) := by
      rw [p3]; simp [Iovec.bytes, List.drop_drop]
    simp only [List.length_drop] at p4
    have hlen : (ob.take idx ++ r.out.bytes).length = ob.length := by
      rw [hob]; simp [p1]; omega
    simp only [silence, List.append_nil, Iovec.setBytes, Iovec.bytes] at h
    by_cases hle : rem ≤ 16384
    · obtain rfl := hN3 hle
      rw [if_pos hle] at hsa
      rw [hsa]
      obtain ⟨fuel', rfl⟩ : ∃ k, fuel = k + 1 := ⟨fuel - 1, by
        rcases hgo with h | h
        · rw [h, if_pos rfl] at hfuel; omega
        · omega⟩
      unfold protectLoopT at h
      rw [if_neg (by simp)] at h
      cases h
      simp [Machine.sendAllSays, silence]
    · have hNr := hN4 (by omega)
      rw [if_neg hle] at hsa
      have hih := ih (i + 1) s1 m1 vs' on' false (rem - N)
        (idx + r.written) (ob.take idx ++ r.out.bytes) log t5 k7 k3 (by omega)
        (by simp; split at hfuel <;> omega) (by simp) (Or.inr (by omega)) (by rw [hlen, p2]; omega) h
      have hroom' : (ob.take idx ++ r.out.bytes).length - (idx + r.written) =
          ob.length - idx - w.length := by rw [hlen]; omega
      rw [hroom'] at hih
      rw [hsa]
      exact hih

theorem protectInto_says {L : Lib} {f : Nat → EvpFault} (hf : ∀ j, f j = .none)
    {errs : Nat → String} {id : BufId} {s : State} {m : Machine} {vs : List Iovec} {out : Iovec}
    {y : State × StatusCode × Iovec} {said : Said} (a : Acts L s.conn m)
    (hw : AllWF vs) (ho : out.WF) (h : protectIntoT L f errs s id vs out = .ok (y, said)) :
    said = m.sendAllSays L (fragments (flat vs)) out.len := by
  unfold protectIntoT at h
  simp only at h
  cases out with
  | buf ob =>
    have := protectLoop_says hf (totalLen vs + 2) 0 s m vs 0 (decide (totalLen vs = 0))
      (totalLen vs) 0 ob [] a hw (curLe_start vs) (by omega) (by split <;> omega) (by simp)
      (by simp; omega) (by omega) h
    rw [this]
    rfl
  | null n =>
    simp only [Iovec.WF] at ho
    subst ho
    unfold protectLoopT at h
    rw [if_pos (by simp; omega)] at h
    have hN : ∃ N, N = (if totalLen vs < kMaxPlaintext then totalLen vs else kMaxPlaintext) ∧
        N ≤ totalLen vs ∧ N = min (totalLen vs) 16384 := by
      refine ⟨_, rfl, ?_⟩
      simp only [kMaxPlaintext]
      split <;> omega
    obtain ⟨N, hNe, hN1, hN2⟩ := hN
    simp only [← hNe] at h
    obtain ⟨ps, vs', on', k1, k2, k3, k4, k5⟩ := collect_spec vs 0 N (curLe_start vs) (by omega)
    obtain ⟨k6, _, k8, _⟩ := k5 hw
    rw [k1] at h
    have hsub : subSize (Iovec.null 0).len 0 = .ok 0 := rfl
    have hsl : (Iovec.null 0).slice 0 0 = .ok (.null 0) := rfl
    rw [exec_bind_ok, hsub, exec_bind_ok, hsl, exec_bind_ok, hf 0] at h
    simp only [exec_bind_eq_ok] at h
    obtain ⟨⟨⟨s1, r⟩, sd⟩, hz, h⟩ := h
    obtain ⟨t1, t2, t3, t4, t5⟩ := protectT_plain (record := .null 0) a k6 rfl hz
    rw [show (Iovec.null 0).len = 0 from rfl] at t1 t3 ⊢
    rw [send_small (by omega)] at t3
    simp only at t3
    rw [if_pos (show r.code ≠ .ok by rw [t3]; simp)] at h
    obtain ⟨x, xs, h1, h2⟩ := fragments_cons (flat vs)
    have hx : x = flat ps := by
      rw [h2, k8, hN2]
      show _ = ((flat vs).drop 0).take _
      rw [List.drop_zero, hw.totalLen_eq]
      by_cases hl : (flat vs).length ≤ 16384
      · rw [List.take_of_length_le hl, List.take_of_length_le (by omega)]
      · rw [Nat.min_eq_right (by omega)]
    rw [h1, sendAllSays_cons (send_small (L := L) (m := m) (x := x) (room := 0) (by omega)),
      if_neg (by simp), hx, ← t1]
    cases h
    simp

theorem sendAllSays_message {L : Lib} {xs : List Bytes} : ∀ {m : Machine} {room : Nat},
    (m.sendAll L xs room).2.1 = .ok → (m.sendAllSays L xs room).message = "" := by
  induction xs with
  | nil => intros; rfl
  | cons x xs ih =>
    intro m room h
    generalize hy : m.send L .applicationData x room = z at h
    obtain ⟨m1, code, w⟩ := z
    rw [sendAllSays_cons hy]
    rw [sendAll_cons hy] at h
    by_cases hc : code = .ok
    · rw [if_pos hc] at h ⊢
      exact ih h
    · rw [if_neg hc] at h
      cases code <;> first | exact absurd rfl hc | cases h

theorem protectCall_says {L : Lib} {A : Allocator} (hA : AllocOk A) {f : Nat → EvpFault}
    (hf : ∀ j, f j = .none) {errs : Nat → String} {s : State} {m : Machine} {vs : List Iovec}
    {y : State × Result} {said : Said} (a : Acts L s.conn m) (hw : AllWF vs)
    (h : protectT L A f errs s vs = .ok (y, said)) :
    said = m.sendAllSays L (fragments (flat vs))
      ((flat vs).length + 22 * recordCount (flat vs).length) := by
  unfold protectT at h
  rw [numberBytesToProtect_eq, hw.totalLen_eq] at h
  generalize hn : (flat vs).length + 22 * recordCount (flat vs).length = n at h ⊢
  obtain ⟨d, hd1, hd2⟩ := hA s.next n
  simp only [State.alloc, hd1, exec_bind_eq_ok] at h
  obtain ⟨⟨⟨s1, st, out⟩, sd⟩, hz, h⟩ := h
  have h1 := protectInto_says (s := { s with next := s.next + 1, mem := s.mem ++ [.alloc (.heap s.next) n] })
    (out := .buf d) hf a hw trivial hz
  simp only [Iovec.len, hd2] at h1
  by_cases hst : st = .ok
  · subst hst
    simp only [ne_eq, not_true_eq_false, if_false] at h
    cases h
    have h2 := acts_protectInto_or (f := f) (id := .heap s.next) (s := { s with next := s.next + 1, mem := s.mem ++ [.alloc (.heap s.next) n] }) (out := .buf d) a hw trivial
    rw [← protectIntoT_mute L f errs, hz] at h2
    simp only [Iovec.len, hd2] at h2
    have h3 : (m.sendAllSays L (fragments (flat vs)) n).message = "" := by
      rcases h2 with ⟨s', out', g1, g2⟩ | ⟨⟨j, hj⟩, _⟩
      · refine sendAllSays_message ?_
        injection g1 with g1
        injection g1 with _ g1
        injection g1 with g1 _
        exact g1.symm
      · exact absurd (hf j) hj
    rw [h1]
    generalize m.sendAllSays L (fragments (flat vs)) n = z at h3
    obtain ⟨l, ms⟩ := z
    simp only at h3
    rw [h3]
  · rw [if_pos hst] at h
    cases h
    exact h1

/-! ## Unprotect -/

theorem readHeaderT_says {k i : Nat} {vs : List Iovec} {on : Nat} {e : StatusCode} {t : String}
    (hc : Cursor vs on) (hl : k ≤ (ahead vs on).length)
    (h : readHeaderT k i vs on = .ok (.error (e, t))) :
    t = "TLS record header is incorrectly formatted." := by
  induction k generalizing i vs on with
  | zero => cases h
  | succ k ih =>
    cases vs with
    | nil => simp [ahead] at hl
    | cons v vs =>
      obtain ⟨d, rfl, hd⟩ := hc.bufs v (by simp)
      have hon := hc.cons _ _ rfl
      simp only [Iovec.len] at hon
      have hb : (Iovec.buf d).byteAt on = .ok d[on] := by
        simp [Iovec.byteAt, List.getElem?_eq_getElem hon]
      unfold readHeaderT at h
      simp only [hb, exec_bind_ok] at h
      split at h
      · cases h
        rfl
      · obtain ⟨c1, c2⟩ := cursor_advance hc.bufs (on := on + 1) (by simp only [Iovec.len]; omega)
        simp only [exec_bind_eq_ok] at h
        obtain ⟨z, hz, h⟩ := h
        cases z with
        | ok w => cases h
        | error w =>
          obtain ⟨e', t'⟩ := w
          cases h
          refine ih c1 ?_ hz
          rw [c2]
          simp only [ahead, List.length_drop] at hl ⊢
          omega

theorem take3 {b : Bytes} (h : 5 ≤ b.length) :
    takeHeader 5 0 b = none ↔ b.take 3 ≠ [23, 3, 3] := by
  rw [takeHeader5]
  match b, h with
  | b0 :: b1 :: b2 :: hi :: lo :: rest, _ =>
    simp only [List.take_succ_cons, List.take_zero, ne_eq, List.cons.injEq, and_true]
    by_cases h : b0 = 23 ∧ b1 = 3 ∧ b2 = 3
    · simp [h]
    · rw [if_neg h]; simp [h]

/-- The first record of some bytes is looked for: what is said if there is none. -/
theorem noRecord_says {vs : List Iovec} {on : Nat} (hc : Cursor vs on)
    (hl : 22 ≤ (ahead vs on).length) (hno : Spec.firstRecord (ahead vs on) = none) :
    (∃ e t, readHeaderT 5 0 vs on = .ok (.error (e, t)) ∧
      Machine.noRecordSays (ahead vs on) = ⟨["Failed to compute TLS record size: " ++ t], t⟩) ∨
    (∃ hd vs1 on1 e, readHeaderT 5 0 vs on = .ok (.ok (hd, vs1, on1)) ∧
      isolate vs1 on1 (payloadSize hd) = .ok (.error e) ∧
      Machine.noRecordSays (ahead vs on) =
        ⟨["Failed to isolate TLS payload: " ++ isolateMessage], isolateMessage⟩) := by
  have hq := readHeaderT_quiet 5 0 vs on
  have h3 := take3 (b := ahead vs on) (by omega)
  have m1 : "Failed to compute TLS record size: " ++ "TLS record header is incorrectly formatted." =
      "Failed to compute TLS record size: TLS record header is incorrectly formatted." := by
    decide +kernel
  have m2 : "Failed to isolate TLS payload: " ++ isolateMessage =
      "Failed to isolate TLS payload: |vecs| is too small to hold TLS record." := by
    decide +kernel
  unfold Machine.noRecordSays
  rw [m2]
  rcases readHeader_spec 5 0 vs on hc with ⟨g1, g2⟩ | ⟨hd, vs1, on1, g1, g2, g3⟩
  · left
    rw [if_pos (h3.1 g1)]
    rw [g2] at hq
    generalize hz : readHeaderT 5 0 vs on = z at hq
    cases z with
    | error u => cases hq
    | ok w =>
      cases w with
      | ok x => cases hq
      | error x =>
        obtain ⟨e, t⟩ := x
        have := readHeaderT_says hc (by omega) hz
        subst this
        exact ⟨_, _, rfl, by rw [m1]⟩
  · right
    rw [if_neg (fun h => by rw [h3.2 h] at g1; cases g1)]
    rw [g3] at hq
    rcases walk_spec vs on hc with ⟨_, hw | ⟨hd', v', o', w1, w2⟩⟩ |
      ⟨_, _, _, _, _, _, _, _, hfr, _⟩
    · rw [g3] at hw; cases hw
    · rw [g3] at w1
      cases w1
      generalize readHeaderT 5 0 vs on = z at hq
      cases z with
      | error u => cases hq
      | ok w =>
        cases w with
        | error x => cases hq
        | ok x =>
          cases hq
          exact ⟨_, _, _, _, rfl, w2, rfl⟩
    · rw [hno] at hfr; cases hfr

theorem readHeaderT_found {vs : List Iovec} {on : Nat} {x} (h : readHeader 5 0 vs on = .ok (.ok x)) :
    readHeaderT 5 0 vs on = .ok (.ok x) := by
  rw [← readHeaderT_quiet] at h
  generalize readHeaderT 5 0 vs on = z at h
  cases z with
  | error u => cases h
  | ok w =>
    cases w with
    | error x => cases h
    | ok x => cases h; rfl

/-- A call of the crypter. -/
theorem unprotectT_plain {L : Lib} {q : String} {s s' : State} {m : Machine} {hd : Bytes}
    {payload : List Iovec} {out : Iovec} {r : Record.Result} {said : Said} (a : Acts L s.conn m)
    (hp : AllWF payload) (ho : out.WF)
    (h : s.crypterUnprotectT L .none q hd payload out = .ok ((s', r), said)) :
    said = m.receiveSays L q hd (flat payload) out.len ∧
    ∃ m' x, m.receive L hd (flat payload) out.len = some (m', r.code, x) ∧ Acts L s'.conn m' := by
  unfold State.crypterUnprotectT at h
  simp only [exec_bind_eq_ok] at h
  obtain ⟨⟨⟨c, r⟩, sd⟩, h1, h2⟩ := h
  cases h2
  have h3 : Record.unprotect L .none s.conn (.buf hd) payload out = .ok (c, r) := by
    rw [← Record.unprotectT_mute L .none q, h1]; rfl
  refine ⟨Record.receive_says a (header := .buf hd) trivial hp ho h1, ?_⟩
  have hg := Record.acts_receive (header := .buf hd) a trivial hp ho
  rw [h3] at hg
  simp only [Iovec.bytes] at hg
  generalize m.receive L hd (flat payload) out.len = z at hg
  cases z with
  | none => cases hg
  | some z =>
    obtain ⟨m1, code, w⟩ := z
    obtain ⟨c0, r0, q1, q2, q3, q4⟩ := hg
    cases q1
    exact ⟨m1, w, by rw [q2], q4⟩

theorem unprotectLoop_says {L : Lib} {A : Allocator} (hA : AllocOk A)
    {f : Nat → Record.Fault} (hf : ∀ j, f j = .none) {errs : Nat → String}
    (fuel k i : Nat) (s : State) (m : Machine)
    (vs : List Iovec) (on rem : Nat) (done : List (BufId × Bytes)) (log : List String)
    {y : State × Result} {said : Said}
    (a : Acts L s.conn m) (hc : Cursor vs on) (hrem : rem = (ahead vs on).length)
    (hfuel : rem < fuel) (hk : rem ≤ k)
    (h : unprotectLoopT L A f errs fuel i s vs on rem done log = .ok (y, said)) :
    said = ⟨log ++ (Machine.unprotectAllSays L errs k i m (ahead vs on)).log,
      (Machine.unprotectAllSays L errs k i m (ahead vs on)).message⟩ := by
  induction fuel generalizing k i s m vs on rem done log with
  | zero => omega
  | succ fuel ih =>
    have hro := Record.recordOverhead_eq s.conn
    unfold unprotectLoopT at h
    by_cases hge : rem ≥ s.conn.recordOverhead
    case neg =>
      rw [if_neg hge] at h
      have hlt : (ahead vs on).length < 22 := by omega
      have : Machine.unprotectAllSays L errs k i m (ahead vs on) = silence := by
        cases k with
        | zero => rfl
        | succ k => rw [Machine.unprotectAllSays, if_pos hlt]
      rw [this]
      cases h
      simp [silence]
    have hge' : ¬ (ahead vs on).length < 22 := by omega
    obtain ⟨k, rfl⟩ : ∃ j, k = j + 1 := ⟨k - 1, by omega⟩
    rw [Machine.unprotectAllSays, if_neg hge']
    rw [if_pos hge] at h
    rcases walk_spec vs on hc with ⟨hno, _⟩ | ⟨hd, payload, rest, vs1, on1, ps, vs', on2, hfr, k1, k2, k3, k4, k5, k6, k7⟩
    · rw [hno]
      rcases noRecord_says hc (by omega) hno with ⟨e, t, g1, g2⟩ | ⟨hd, vs1, on1, e, g1, g2, g3⟩
      · rw [show kHeaderLength = 5 from rfl, g1] at h
        simp only
        rw [g2]
        cases h
        rfl
      · rw [show kHeaderLength = 5 from rfl, g1] at h
        simp only [exec_bind_ok, g2] at h
        simp only
        rw [g3]
        cases h
        rfl
    rw [hfr]
    simp only
    obtain ⟨d, hd1, hd2⟩ := hA s.next payload.length
    obtain ⟨hsplit, hwhole⟩ := firstRecord_some hfr
    rw [k3] at k2
    rw [show readHeaderT kHeaderLength 0 vs on = _ from readHeaderT_found k1] at h
    simp only [exec_bind_ok, k3, k2, State.alloc, hd1, hf i] at h
    simp only [exec_bind_eq_ok] at h
    obtain ⟨⟨⟨s1, r⟩, sd⟩, hz, h⟩ := h
    obtain ⟨t1, m1, x, t2, t3⟩ := unprotectT_plain (s := { s with next := s.next + 1, mem := s.mem ++ [.alloc (.heap s.next) payload.length] }) (out := .buf d) a k5 trivial hz
    rw [k4] at t1 t2
    simp only [Iovec.len, hd2] at t1 t2
    rw [t2, ← t1]
    by_cases hcode : r.code = .ok
    case neg =>
      rw [if_pos (show r.code ≠ .ok from hcode)] at h
      cases h
      cases hx : r.code <;> first | exact absurd hx hcode | simp
    rw [hcode]
    simp only
    rw [if_neg (not_not_intro hcode)] at h
    have hspl : rem = 5 + payload.length + rest.length := by
      rw [hrem, hsplit]
      have : hd.length = 5 := by rw [hwhole.header]; rfl
      simp [this]
      omega
    simp only [subSize_ok (show kHeaderLength + payload.length ≤ rem by simp [kHeaderLength]; omega), exec_bind_ok] at h
    have := ih k (i + 1) s1 m1 vs' on2
      (rem - (kHeaderLength + payload.length)) _ _
      t3 k6 (by rw [k7, hspl]; simp [kHeaderLength]) (by simp [kHeaderLength]; omega)
      (by simp [kHeaderLength]; omega) h
    rw [k7] at this
    rw [this]
    simp

theorem receiveSays_message {L : Lib} {q : String} {s s' : State} {hd : Bytes}
    {payload : List Iovec} {out : Iovec} {r : Record.Result} {said : Said}
    (h : s.crypterUnprotectT L .none q hd payload out = .ok ((s', r), said)) (hc : r.code = .ok) :
    said.message = "" := by
  unfold State.crypterUnprotectT at h
  simp only [exec_bind_eq_ok] at h
  obtain ⟨⟨⟨c, r⟩, sd⟩, h1, h2⟩ := h
  cases h2
  exact ((Record.unprotectT_fine (errs := fun _ => True) (w := q) trivial h1).success hc).1

theorem step_says {L : Lib} {A : Allocator} (hA : AllocOk A) {errs : Nat → String} {s : State}
    {m : Machine} {op : Op} {y : State × Event} {said : Said} (a : Acts L s.conn m)
    (hf : op.Fine) (h : stepT L A errs s op = .ok (y, said)) :
    said = m.frameSays L errs op.plain := by
  cases op with
  | protect f vs =>
    obtain ⟨h1, h2⟩ := hf
    simp only [stepT, exec_bind_eq_ok] at h
    obtain ⟨⟨⟨s1, r⟩, sd⟩, hz, h⟩ := h
    cases h
    exact protectCall_says hA h1 a h2 hz
  | protectInto f vs out =>
    obtain ⟨h1, h2, h3⟩ := hf
    simp only [stepT, exec_bind_eq_ok] at h
    obtain ⟨⟨⟨s1, st, out'⟩, sd⟩, hz, h⟩ := h
    cases h
    exact protectInto_says h1 a h2 h3 hz
  | unprotect f vs =>
    obtain ⟨h1, h2⟩ := hf
    have hro := Record.recordOverhead_eq s.conn
    simp only [stepT, exec_bind_eq_ok] at h
    obtain ⟨⟨⟨s1, r⟩, sd⟩, hz, h⟩ := h
    cases h
    unfold unprotectT at hz
    simp only at hz
    simp only [Op.plain, Machine.frameSays]
    rw [h2.wf.totalLen_eq] at hz
    by_cases hlt : (flat vs).length < 22
    · rw [if_pos hlt]
      rw [if_pos (by omega)] at hz
      cases hz
      rfl
    rw [if_neg hlt]
    rw [if_neg (by omega)] at hz
    have := unprotectLoop_says hA h1 ((flat vs).length + 1) (flat vs).length 0 s m vs 0
      (flat vs).length [] [] a (cursor_start h2) (by simp [ahead]) (by omega) (by omega) hz
    rw [this]
    rfl
  | unprotectInto f vs out =>
    obtain ⟨h1, h2, h3⟩ := hf
    simp only [stepT, exec_bind_eq_ok] at h
    obtain ⟨⟨⟨s1, st, len, out'⟩, sd⟩, hz, h⟩ := h
    cases h
    subst h1
    unfold unprotectIntoT at hz
    simp only [Op.plain, Machine.frameSays]
    rw [h2.wf.totalLen_eq] at hz
    by_cases hlt : (flat vs).length < 22
    · rw [if_pos hlt]
      rw [if_pos (show numberBytesToUnprotect s (flat vs).length = 0 from if_pos hlt)] at hz
      cases hz
      rfl
    have hz0 : ¬ numberBytesToUnprotect s (flat vs).length = 0 := by
      unfold numberBytesToUnprotect
      rw [if_neg (show ¬ (flat vs).length < s.conn.recordOverhead from hlt)]
      simp only [kHeaderLength]
      omega
    rw [if_neg hlt]
    rw [if_neg hz0] at hz
    unfold Machine.unprotectFirstSays
    rcases walk_spec vs 0 (cursor_start h2) with ⟨hno, _⟩ |
      ⟨hd, payload, rest, vs1, on1, ps, vs', on2, hfr, k1, k2, k3, k4, k5, k6, k7⟩
    · have hn := noRecord_says (cursor_start h2) (show 22 ≤ (ahead vs 0).length by
        rw [show ahead vs 0 = flat vs from rfl]; omega) hno
      rw [show ahead vs 0 = flat vs from rfl] at hno hn
      rw [hno]
      rcases hn with ⟨e, t, g1, g2⟩ | ⟨hd, vs1, on1, e, g1, g2, g3⟩
      · rw [show kHeaderLength = 5 from rfl, g1] at hz
        simp only
        rw [g2]
        cases hz
        rfl
      · rw [show kHeaderLength = 5 from rfl, g1] at hz
        simp only [exec_bind_ok, g2] at hz
        simp only
        rw [g3]
        cases hz
        rfl
    rw [show ahead vs 0 = flat vs from rfl] at hfr
    rw [hfr]
    simp only
    rw [show readHeaderT kHeaderLength 0 vs 0 = _ from readHeaderT_found k1] at hz
    simp only [exec_bind_ok, k2] at hz
    simp only [exec_bind_eq_ok] at hz
    obtain ⟨⟨⟨s2, r⟩, sd2⟩, hy, hz⟩ := hz
    obtain ⟨t1, m1, x, t2, t3⟩ := unprotectT_plain (out := out) a k5 h3 hy
    rw [k4] at t1 t2
    rw [t2, ← t1]
    by_cases hcode : r.code = .ok
    · have hm := receiveSays_message hy hcode
      rw [if_neg (not_not_intro hcode)] at hz
      cases hz
      rw [hcode]
      cases sd2
      simp only at hm
      rw [hm]
    · rw [if_pos (show r.code ≠ .ok from hcode)] at hz
      cases hz
      cases hx : r.code <;> first | exact absurd hx hcode | rfl

/-- A whole history. -/
theorem run_says {L : Lib} {A : Allocator} (hA : AllocOk A) {ops : List (Op × (Nat → String))} :
    ∀ {s : State} {m : Machine}, Acts L s.conn m → (∀ x ∈ ops, x.1.Fine) →
    match m.frameTalk L (ops.map fun x => (x.1.plain, x.2)) with
    | none => runT L A s ops = .error .negativeShift
    | some said => ∃ s' es, runT L A s ops = .ok (s', es) ∧ es.map (·.2) = said := by
  induction ops with
  | nil => intro s m a _; exact ⟨s, [], rfl, rfl⟩
  | cons x ops ih =>
    obtain ⟨op, errs⟩ := x
    intro s m a hf
    have h1 := acts_frameStep (op := op) hA a (hf (op, errs) (by simp))
    rw [← stepT_mute L A errs] at h1
    simp only [List.map_cons, Machine.frameTalk, runT]
    generalize m.frameStep L op.plain = o at h1
    cases o with
    | none =>
      have h1 : mute (stepT L A errs s op) = .error .negativeShift := h1
      generalize stepT L A errs s op = z at h1
      cases z with
      | error u => cases h1; rfl
      | ok w => cases h1
    | some y =>
      obtain ⟨m1, ans⟩ := y
      obtain ⟨s1, e, e1, e2, e3⟩ := h1
      generalize hz : stepT L A errs s op = z at e1
      cases z with
      | error u => cases e1
      | ok w =>
        obtain ⟨w, sd⟩ := w
        cases e1
        have hsd := step_says hA a (hf (op, errs) (by simp)) hz
        have h2 := ih e3 (fun op h => hf op (by simp [h]))
        simp only [exec_bind_ok]
        generalize m1.frameTalk L (ops.map fun x => (x.1.plain, x.2)) = o at h2
        cases o with
        | none =>
          simp only at h2 ⊢
          rw [h2]; rfl
        | some later =>
          obtain ⟨s2, es, g1, g2⟩ := h2
          simp only
          rw [g1]
          exact ⟨s2, _, rfl, by simp [g2, hsd]⟩

end S2A.Frame
