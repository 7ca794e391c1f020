import Verif.Lemmas.FrameProtect
import Verif.Lemmas.FrameWalk
import Verif.Lemmas.Safe
/-
The loop of the allocating `Unprotect`.
-/
namespace S2A.Record
open HalfConn (exec_bind_eq_ok Good)

theorem handleResult_rekey {L : Lib} {f : KeyFault} {c c' : Conn} {r st rk}
    (h : handleResult L f c r = .ok (c', st, rk)) (hst : st = .ok) :
    rk = none ∨ rk = some .ok := by
  cases r with
  | error e => cases h; exact Or.inl rfl
  | ok r =>
    unfold handleResult at h
    simp only at h
    split at h
    · simp only [exec_bind_eq_ok] at h
      obtain ⟨⟨j, st'⟩, _, h⟩ := h
      simp only at h
      split at h
      · cases h; cases hst
      · next hx =>
        simp only [exec_bind_eq_ok] at h
        obtain ⟨c2, _, h⟩ := h
        cases h
        simp only [ne_eq, Decidable.not_not] at hx
        exact Or.inr (by rw [hx])
    · simp only [exec_bind_eq_ok] at h
      obtain ⟨c2, _, h⟩ := h
      cases h
      exact Or.inl rfl

/-- What an OK of `Unprotect` means, with the key uses of the call. -/
theorem unprotect_accept {L : Lib} {a : CreateArgs} {su : Spec.Suite} {c c' : Conn}
    {evs : List Event} {f : Fault} {header : Iovec} {payload : List Iovec} {out : Iovec}
    {r : Result} (hs : Spec.suite a.ciphersuite = some su) (hr : Reach L a c evs)
    (hp : AllWF payload) (ho : out.WF)
    (h : unprotect L f c header payload out = .ok (c', r)) (hok : r.code = .ok) :
    ∃ inner content, (inPos L a su evs).open L header.bytes (flat payload) = some inner ∧
      ((Spec.unpad inner = some (content, Spec.appDataType) ∧
          r.out.bytes.take r.written = content ∧
          inPos L a su (evs ++ [.opened r]) = (inPos L a su evs).next) ∨
       (Spec.unpad inner = some (content, Spec.handshakeType) ∧ r.written = 0 ∧
          (inPos L a su (evs ++ [.opened r]) = (inPos L a su evs).next ∨
           inPos L a su (evs ++ [.opened r]) = ((inPos L a su evs).next).update L))) := by
  have hpos : inPos L a su (evs ++ [.opened r]) = (inPos L a su evs).after L r.uses := by
    unfold inPos
    rw [inTrace_append, HalfConn.after_append]
    simp [inTrace]
  rw [hpos]
  rcases unprotect_cases hr hs f header payload out hp ho with
    ⟨r', h1, h2, _⟩ | ⟨hcn, hhd, hl1, hl2, hlt, hat, h1 | ⟨p, ob, ho1, ho2, ho3, ho4, ho5, h1⟩⟩
  · rw [h] at h1; cases h1; exact absurd hok h2
  · rw [h] at h1; cases h1.1; cases hok
  · rw [h] at h1
    rcases unpad_cases p with ⟨hu, _⟩ | ⟨content, t, k, ht, hpe, hu⟩
    · rw [dispatch_none _ _ _ _ _ _ hu] at h1; cases h1; cases hok
    refine ⟨p, content, ho1, ?_⟩
    obtain ⟨_, hcl, hct, _⟩ := unpad_length hu
    by_cases t1 : t = Spec.alertType
    · rw [t1] at hu
      rw [dispatch_alert _ _ _ _ _ _ hu] at h1
      split at h1
      · cases h1; cases hok
      · split at h1 <;> (cases h1; cases hok)
    by_cases t2 : t = Spec.handshakeType
    · right
      rw [t2] at hu
      rw [dispatch_handshake _ _ _ _ _ _ hu] at h1
      symm at h1
      simp only [exec_bind_eq_ok] at h1
      obtain ⟨x, _, ⟨c2, st, rk⟩, hh, h2⟩ := h1
      simp only at h2
      cases h2
      refine ⟨hu, rfl, ?_⟩
      have hst : st = .ok := by
        simp only at hok
        split at hok
        · assumption
        · cases hok
      rcases handleResult_rekey hh hst with e | e
      · left; simp [Result.uses, e, Spec.Dir.after]
      · right; simp [Result.uses, e, Spec.Dir.after]
    by_cases t3 : t = Spec.appDataType
    · left
      rw [t3] at hu
      rw [dispatch_appData _ _ _ _ _ _ hu] at h1
      symm at h1
      have hfin : ∃ call, r.written = content.length ∧ r.out = .buf (p ++ ob.drop p.length) ∧
          r.call = some call ∧ r.rekey = none := by
        split at h1
        · cases h1; cases hok
        · split at h1
          · simp only [exec_bind_eq_ok] at h1
            obtain ⟨x, _, h2⟩ := h1
            cases h2
            exact ⟨_, rfl, rfl, rfl, rfl⟩
          · cases h1; exact ⟨_, rfl, rfl, rfl, rfl⟩
      obtain ⟨call, k1, k2, k3, k4⟩ := hfin
      refine ⟨hu, ?_, ?_⟩
      · rw [k1, k2]
        simp only [Iovec.bytes]
        rw [List.take_append_of_le_length (by omega), hct]
      · simp [Result.uses, k3, k4, Spec.Dir.after]
    · rw [dispatch_other _ _ _ _ _ _ hu t1 t2 t3] at h1
      cases h1; cases hok

end S2A.Record

namespace S2A.Frame
open Record (Reach inPos)
open Spec (AllocOk Framed Accepted Whole destroys allocates)

theorem framed_first {b : Bytes} (h : Framed b) (hl : 22 ≤ b.length) :
    ∃ r, Spec.firstRecord b = some r := by
  obtain ⟨recs, tail, e, ht, hw⟩ := h
  cases recs with
  | nil => simp at e; subst e; omega
  | cons r recs =>
    rw [e]
    simp only [List.map_cons, List.flatten_cons, List.append_assoc]
    have := firstRecord_whole (hw r (by simp)) ((recs.map fun r => r.1 ++ r.2).flatten ++ tail)
    simp only [List.append_assoc] at this
    exact ⟨_, this⟩

/-- Being complete records after the first record. -/
theorem framed_rest {b hd payload rest : Bytes} (h : Framed b) (hl : 22 ≤ b.length)
    (hf : Spec.firstRecord b = some (hd, payload, rest)) : Framed rest := by
  obtain ⟨recs, tail, e, ht, hw⟩ := h
  cases recs with
  | nil => simp at e; subst e; omega
  | cons r recs =>
    have h1 := firstRecord_whole (hw r (by simp)) ((recs.map fun r => r.1 ++ r.2).flatten ++ tail)
    have h2 : b = r.1 ++ r.2 ++ ((recs.map fun r => r.1 ++ r.2).flatten ++ tail) := by
      rw [e]; simp
    rw [← h2, hf] at h1
    cases h1
    exact ⟨recs, tail, rfl, ht, fun r hr => hw r (by simp [hr])⟩

theorem destroyAll_eq (s : State) (l : List (BufId × Bytes)) :
    s.destroyAll l = { s with mem := s.mem ++ l.map fun x => .destroy x.1 x.2.length } := by
  induction l generalizing s with
  | nil => simp [State.destroyAll]
  | cons x l ih =>
    obtain ⟨id, b⟩ := x
    simp [State.destroyAll, ih, State.destroy]

theorem countP_destroys (id : BufId) (l : List (BufId × Bytes)) :
    (l.map fun x => MemEvent.destroy x.1 x.2.length).countP (destroys id) =
      (l.map (·.1)).count id := by
  rw [List.countP_map, List.count, List.countP_map]
  rfl

theorem countP_allocs (id : BufId) (l : List (BufId × Bytes)) :
    (l.map fun x => MemEvent.destroy x.1 x.2.length).countP (allocates id) = 0 := by
  rw [List.countP_map, List.countP_eq_zero]
  intro x _
  simp [allocates]

theorem alloc_bufs {A : Allocator} (hA : AllocOk A) (i n : Nat) :
    ∃ d, A i n = .buf d ∧ d.length = n := hA i n

theorem unprotectLoop_spec {L : Lib} {A : Allocator} {a : Record.CreateArgs} {su : Spec.Suite}
    (hA : AllocOk A) (hs : Spec.suite a.ciphersuite = some su) (f : Nat → Record.Fault)
    (fuel i : Nat) (s : State) (vs : List Iovec) (on rem : Nat) (done : List (BufId × Bytes))
    (hr : Reach L a s.conn s.evs) (hc : Cursor vs on) (hrem : rem = (ahead vs on).length)
    (hfuel : rem < fuel) :
    unprotectLoop L A f fuel i s vs on rem done = .error .negativeShift ∨
    ∃ s' res new, unprotectLoop L A f fuel i s vs on rem done = .ok (s', res) ∧ Calls L s s' ∧
      s'.maxRecordSize = s.maxRecordSize ∧ s'.mem = s.mem ++ new ∧ s.next ≤ s'.next ∧
      (∀ id, new.countP (allocates id) ≤ 1 ∧
        (new.countP (allocates id) ≠ 0 → ∃ j, id = .heap j ∧ s.next ≤ j ∧ j < s'.next)) ∧
      ((res.status = .ok ∧ (∀ id, new.countP (destroys id) = 0 ∧
          (res.bytes.map (·.1)).count id = (done.map (·.1)).count id + new.countP (allocates id)) ∧
        ∃ recs tail out, ahead vs on = (recs.map fun r => r.1 ++ r.2).flatten ++ tail ∧
          tail.length < 22 ∧ (∀ r ∈ recs, Whole r.1 r.2) ∧
          res.bytes.map (·.2) = done.map (·.2) ++ out ∧
          Accepted L (inPos L a su s.evs) recs out (inPos L a su s'.evs)) ∨
       (res.status ≠ .ok ∧ res.bytes = [] ∧ ∀ id, new.countP (destroys id) =
          (done.map (·.1)).count id + new.countP (allocates id)) ∨
       (res.status = .failedPrecondition ∧ res.bytes = [] ∧
          (∀ id, new.countP (destroys id) = 0) ∧ ¬ Framed (ahead vs on))) := by
  induction fuel generalizing i s vs on rem done with
  | zero => omega
  | succ fuel ih =>
    unfold unprotectLoop
    have h22 : s.conn.recordOverhead = 22 := Record.recordOverhead_eq _
    by_cases hge : rem ≥ s.conn.recordOverhead
    case neg =>
      rw [if_neg hge]
      rw [h22] at hge
      refine Or.inr ⟨s, ⟨.ok, done⟩, [], rfl, .refl s, rfl, by simp, Nat.le_refl _, by simp, Or.inl ⟨rfl, by simp, ?_⟩⟩
      exact ⟨[], ahead vs on, [], by simp, by omega, by simp, by simp, .nil _⟩
    rw [if_pos hge]
    rw [h22] at hge
    have hl22 : 22 ≤ (ahead vs on).length := by omega
    rcases walk_spec vs on hc with ⟨hno, hw⟩ | ⟨hd, payload, rest, vs1, on1, ps, vs', on', hfr, k1, k2, k3, k4, k5, k6, k7⟩
    · have hnf : ¬ Framed (ahead vs on) := by
        intro hf
        obtain ⟨r, e⟩ := framed_first hf hl22
        rw [hno] at e; cases e
      right
      rcases hw with hw | ⟨hd, vs', on', hw1, hw2⟩
      · refine ⟨s, ⟨.failedPrecondition, []⟩, [], by simp [hw], .refl s, rfl, by simp, Nat.le_refl _, by simp, Or.inr (Or.inr ⟨rfl, rfl, by simp, hnf⟩)⟩
      · refine ⟨s, ⟨.failedPrecondition, []⟩, [], by simp [hw1, hw2], .refl s, rfl, by simp, Nat.le_refl _, by simp, Or.inr (Or.inr ⟨rfl, rfl, by simp, hnf⟩)⟩
    obtain ⟨hsplit, hwhole⟩ := firstRecord_some hfr
    obtain ⟨d, hd1, hd2⟩ := hA s.next payload.length
    have hgood := (hr.good hs).1
    rw [k3] at k2
    simp only [k1, exec_bind_ok, k3, k2, State.alloc, hd1, State.crypterUnprotect]
    have hsafe := Record.unprotect_safe' (L := L) (f := f i) (header := .buf hd) (payload := ps) (out := .buf d) hgood hr.safe k5 trivial
    rcases hsafe with he | ⟨c', r, he, _, hlen, _⟩
    · left; rw [he]; rfl
    simp only [he, exec_bind_ok, exec_pure]
    have hstep : Record.step L s.conn (.unprotect (f i) (.buf hd) ps (.buf d)) = .ok (c', .opened r) := by
      simp [Record.step, he]
    have hr' : Reach L a c' (s.evs ++ [.opened r]) := hr.step hstep
    by_cases hcode : r.code = .ok
    case neg =>
      rw [if_pos hcode]
      right
      refine ⟨_, _, [.alloc (.heap s.next) payload.length, .destroy (.heap s.next) d.length] ++ done.map fun x => .destroy x.1 x.2.length, rfl, ?_, ?_, ?_, ?_, ?_, Or.inr (Or.inl ⟨fun h => hcode (convertCode_ok.1 h), rfl, ?_⟩)⟩
      · exact ⟨[.unprotect (f i) (.buf hd) ps (.buf d)], [.opened r],
          by simp [Record.run, hstep, destroyAll_eq, State.destroy],
          by simp [destroyAll_eq, State.destroy]⟩
      · simp [destroyAll_eq, State.destroy]
      · simp [destroyAll_eq, State.destroy, Iovec.len]
      · simp [destroyAll_eq, State.destroy]
      · intro id
        rw [List.countP_append, countP_allocs]
        simp only [allocates, List.countP_cons, List.countP_nil]
        refine ⟨by by_cases hx : BufId.heap s.next = id <;> simp [hx], fun h => ?_⟩
        have : id = .heap s.next := by
          by_cases hx : BufId.heap s.next = id
          · exact hx.symm
          · simp [hx] at h
        exact ⟨s.next, this, Nat.le_refl _, by simp [destroyAll_eq, State.destroy]⟩
      · intro id
        rw [List.countP_append, List.countP_append, countP_allocs, countP_destroys]
        simp only [allocates, destroys, List.countP_cons, List.countP_nil]
        simp
        omega
    · rw [if_neg (not_not_intro hcode)]
      have hspl : rem = 5 + payload.length + rest.length := by
        rw [hrem, hsplit]
        have : hd.length = 5 := by rw [hwhole.header]; rfl
        simp [this]
        omega
      simp only [subSize_ok (show kHeaderLength + payload.length ≤ rem by simp [kHeaderLength]; omega), exec_bind_ok]
      have hih := ih (i + 1) { s with conn := c', next := s.next + 1, mem := s.mem ++ [.alloc (.heap s.next) payload.length], evs := s.evs ++ [.opened r] } vs' on' (rem - (kHeaderLength + payload.length)) (done ++ [(BufId.heap s.next, r.out.bytes.take r.written)]) hr' k6 (by rw [k7, hspl]; simp [kHeaderLength]) (by simp [kHeaderLength]; omega)
      rcases hih with hih | ⟨s', res, new, q1, q2, q3, q4, q5, q6, q7⟩
      · exact Or.inl hih
      right
      have hcalls : Calls L s { s with conn := c', next := s.next + 1, mem := s.mem ++ [.alloc (.heap s.next) payload.length], evs := s.evs ++ [.opened r] } :=
        ⟨[.unprotect (f i) (.buf hd) ps (.buf d)], [.opened r], by simp [Record.run, hstep], rfl⟩
      have hnew : ∀ id, (MemEvent.alloc (.heap s.next) payload.length :: new).countP (allocates id) = new.countP (allocates id) + (if BufId.heap s.next = id then 1 else 0) := by
        intro id; simp [allocates, List.countP_cons]
      have hnewd : ∀ id, (MemEvent.alloc (.heap s.next) payload.length :: new).countP (destroys id) = new.countP (destroys id) := by
        intro id; simp [destroys, List.countP_cons]
      have hcnt : ∀ id, ((done ++ [(BufId.heap s.next, r.out.bytes.take r.written)]).map (·.1)).count id = (done.map (·.1)).count id + (if BufId.heap s.next = id then 1 else 0) := by
        intro id; simp [List.count_append, List.count_cons]
      refine ⟨s', res, .alloc (.heap s.next) payload.length :: new, q1, hcalls.trans q2, q3, by rw [q4]; simp, by simp only at q5; omega, ?_, ?_⟩
      · intro id
        rw [hnew]
        obtain ⟨x1, x2⟩ := q6 id
        by_cases hx : BufId.heap s.next = id
        · have hz : new.countP (allocates id) = 0 := by
            by_cases hz : new.countP (allocates id) = 0
            · exact hz
            · obtain ⟨j, e1, e2, _⟩ := x2 hz
              rw [← hx] at e1
              cases e1
              simp only at e2
              omega
          rw [hz, if_pos hx]
          exact ⟨by omega, fun _ => ⟨s.next, hx.symm, Nat.le_refl _, by simp only at q5; omega⟩⟩
        · rw [if_neg hx]
          refine ⟨by omega, fun h => ?_⟩
          obtain ⟨j, e1, e2, e3⟩ := x2 (by omega)
          exact ⟨j, e1, by simp only at e2; omega, e3⟩
      · rcases q7 with ⟨w1, w2, recs, tail, out, w3, w4, w5, w6, w7⟩ | ⟨w1, w2, w3⟩ | ⟨w1, w2, w3, w4⟩
        · left
          refine ⟨w1, fun id => ?_, ?_⟩
          · rw [hnew, hnewd]
            obtain ⟨y1, y2⟩ := w2 id
            rw [hcnt] at y2
            exact ⟨y1, by omega⟩
          · obtain ⟨inner, content, z1, z2⟩ := Record.unprotect_accept (out := .buf d) hs hr k5 trivial he hcode
            rw [k4] at z1
            have hcat : ahead vs on = (((hd, payload) :: recs).map fun r => r.1 ++ r.2).flatten ++ tail := by
              rw [hsplit, ← k7, w3]; simp
            have hall : ∀ r ∈ (hd, payload) :: recs, Whole r.1 r.2 := by
              intro x hx
              rcases List.mem_cons.1 hx with rfl | hx
              · exact hwhole
              · exact w5 x hx
            have hb : ∀ b, r.out.bytes.take r.written = b → res.bytes.map (·.2) = done.map (·.2) ++ (b :: out) := by
              intro b hb
              rw [w6, ← hb]; simp
            simp only at w7
            rcases z2 with ⟨u1, u2, u3⟩ | ⟨u1, u2, u3⟩
            · refine ⟨(hd, payload) :: recs, tail, content :: out, hcat, w4, hall, hb _ u2, ?_⟩
              rw [u3] at w7
              exact .data z1 u1 w7
            · refine ⟨(hd, payload) :: recs, tail, [] :: out, hcat, w4, hall, hb _ (by rw [u2]; simp), ?_⟩
              exact .handshake z1 u1 u3 w7
        · refine Or.inr (Or.inl ⟨w1, w2, fun id => ?_⟩)
          rw [hnew, hnewd, w3 id, hcnt]
          omega
        · refine Or.inr (Or.inr ⟨w1, w2, fun id => by rw [hnewd, w3 id], fun hf => w4 ?_⟩)
          rw [k7]
          exact framed_rest hf hl22 hfr

end S2A.Frame
