import Verif.Lemmas.FrameUnprotect
/-
Without failures of the library, `Protect` and `Unprotect` depend on the bytes of their inputs
only.
-/
namespace S2A.Record
open HalfConn (exec_bind_eq_ok)

theorem protect_inner {L : Lib} {f : EvpFault} {c c' : Conn} {rt pt rec r}
    (h : protect L f c rt pt rec = .ok (c', r)) : r.inner = none := by
  unfold protect at h
  simp only at h
  split at h
  · cases h; rfl
  split at h
  · cases h; rfl
  split at h
  · cases h
  simp only [exec_bind_eq_ok] at h
  obtain ⟨rb, _, h⟩ := h
  split at h
  · cases h; rfl
  simp only [exec_bind_eq_ok] at h
  obtain ⟨rest, _, x, _, h⟩ := h
  split at h <;> (cases h; rfl)

/-- The outcome that `ProtectSpec` allows without failures. -/
theorem protectSpec_unique {L : Lib} {c : Conn} {rt pt rb c1 r1 c2 r2} (hp : AllWF pt)
    (h1 : ProtectSpec L .none c rt pt rb c1 r1) (h2 : ProtectSpec L .none c rt pt rb c2 r2)
    (hi : r1.inner = r2.inner) : c1 = c2 ∧ r1 = r2 := by
  unfold ProtectSpec at h1 h2
  rcases h1 with ⟨a1, a2, a3⟩ | ⟨a1, a2, ⟨a3, a4, a5⟩ | ⟨t, a3, ⟨a4, a5, a6⟩ | ⟨a4, a5, a6, a7, a | ⟨a8, a9, a10, a11⟩⟩⟩⟩
  · rcases h2 with ⟨b1, b2, b3⟩ | ⟨b1, b2, _⟩
    · exact ⟨a2.trans b2.symm, a3.trans b3.symm⟩
    · omega
  · rcases h2 with ⟨b1, b2, b3⟩ | ⟨b1, b2, ⟨b3, b4, b5⟩ | ⟨t', b3, _⟩⟩
    · omega
    · exact ⟨a4.trans b4.symm, a5.trans b5.symm⟩
    · rw [a3] at b3; cases b3
  · rcases h2 with ⟨b1, b2, b3⟩ | ⟨b1, b2, ⟨b3, b4, b5⟩ | ⟨t', b3, ⟨b4, b5, b6⟩ | ⟨b4, _⟩⟩⟩
    · omega
    · rw [a3] at b3; cases b3
    · exact ⟨a5.trans b5.symm, a6.trans b6.symm⟩
    · rw [a4] at b4; cases b4
  · exact absurd ⟨rfl, hp⟩ a.2.2.2
  · rcases h2 with ⟨b1, b2, b3⟩ | ⟨b1, b2, ⟨b3, b4, b5⟩ | ⟨t', b3, ⟨b4, b5, b6⟩ | ⟨b4, b5, b6, b7, b | ⟨b8, b9, b10, b11⟩⟩⟩⟩
    · omega
    · rw [a3] at b3; cases b3
    · rw [a4] at b4; cases b4
    · exact absurd ⟨rfl, hp⟩ b.2.2.2
    · rw [a3] at b3
      cases b3
      refine ⟨a5.trans b5.symm, ?_⟩
      obtain ⟨x1, x2, x3, x4, x5, x6⟩ := r1
      obtain ⟨y1, y2, y3, y4, y5, y6⟩ := r2
      simp only at *
      subst a8 b8 a10 b10 a11 b11 a7 b7 hi
      rw [a6, b6]

theorem protect_flat {L : Lib} {c : Conn} {rt pt pt' rb} (hn : c.outC.nonce.length = 12)
    (hp : AllWF pt) (hp' : AllWF pt') (hf : flat pt = flat pt') :
    protect L .none c rt pt (.buf rb) = protect L .none c rt pt' (.buf rb) := by
  obtain ⟨c1, r1, e1, s1⟩ := protect_spec L .none c rt pt rb hn
  obtain ⟨c2, r2, e2, s2⟩ := protect_spec L .none c rt pt' rb hn
  have s2' : ProtectSpec L .none c rt pt rb c2 r2 := by
    unfold ProtectSpec at s2 ⊢
    rw [hf, hp.totalLen_eq, hf, ← hp'.totalLen_eq]
    simp only [hp, hp', and_true] at s2 ⊢
    exact s2
  obtain ⟨h1, h2⟩ := protectSpec_unique hp s1 s2' (by rw [protect_inner e1, protect_inner e2])
  rw [e1, e2, h1, h2]

end S2A.Record

namespace S2A.Frame
open Record (Reach)
open Spec (AllocOk)

theorem protectLoop_flat {L : Lib} {f : Nat → EvpFault} (hf : ∀ j, f j = .none) (id : BufId)
    (fuel i : Nat) (s : State) (vs ws : List Iovec) (on on' : Nat) (first : Bool)
    (rem idx : Nat) (ob : Bytes) (hn : s.conn.outC.nonce.length = 12)
    (hc : CurLe vs on) (hc' : CurLe ws on') (hrem : rem + on = totalLen vs)
    (hrem' : rem + on' = totalLen ws) (hw : AllWF vs) (hw' : AllWF ws)
    (hflat : ahead vs on = ahead ws on') (hidx : idx ≤ ob.length) :
    protectLoop L f id fuel i s vs on first rem idx (.buf ob) =
      protectLoop L f id fuel i s ws on' first rem idx (.buf ob) := by
  induction fuel generalizing i s vs ws on on' first rem idx ob with
  | zero => rfl
  | succ fuel ih =>
    unfold protectLoop
    by_cases hgo : (first || decide (rem > 0)) = true
    case neg => rw [if_neg hgo, if_neg hgo]
    rw [if_pos hgo, if_pos hgo]
    have hN : ∃ N, N = (if rem < kMaxPlaintext then rem else kMaxPlaintext) ∧ N ≤ rem := by
      refine ⟨_, rfl, ?_⟩
      split <;> omega
    obtain ⟨N, hNe, hN1⟩ := hN
    simp only [← hNe]
    obtain ⟨ps, vs', on1, k1, k2, k3, k4, k5⟩ := collect_spec vs on N hc (by omega)
    obtain ⟨qs, ws', on1', l1, l2, l3, l4, l5⟩ := collect_spec ws on' N hc' (by omega)
    obtain ⟨m1, m2, m3, m4⟩ := k5 hw
    obtain ⟨n1, n2, n3, n4⟩ := l5 hw'
    have hsl : (Iovec.buf ob).slice idx (ob.length - idx) = .ok (.buf (ob.drop idx)) := by
      simp only [Iovec.slice]
      rw [if_pos (by omega), List.take_of_length_le (by simp)]
    have hpf := Record.protect_flat (L := L) (rt := .applicationData) (rb := ob.drop idx) hn m1 n1
      (by rw [m3, n3, hflat])
    obtain ⟨c, r, e2, e3⟩ := Record.protect_spec L .none s.conn .applicationData ps (ob.drop idx) hn
    have e2' := e2
    rw [hpf] at e2'
    simp only [k1, l1, exec_bind_ok, Iovec.len, subSize_ok hidx, hsl, State.crypterProtect, hf i,
      e2, e2', exec_pure]
    show (if r.code ≠ .ok then _ else if r.written ≠ N + 22 then _ else _) =
      (if r.code ≠ .ok then _ else if r.written ≠ N + 22 then _ else _)
    by_cases hcode : r.code = .ok
    case neg => rw [if_pos hcode, if_pos hcode]
    rw [if_neg (not_not_intro hcode), if_neg (not_not_intro hcode)]
    by_cases hwr : r.written = N + 22
    case neg => rw [if_pos hwr, if_pos hwr]
    rw [if_neg (not_not_intro hwr), if_neg (not_not_intro hwr)]
    have hob : ∃ o, r.out = .buf o ∧ idx + r.written ≤ (ob.take idx ++ o).length ∧
        c.outC.nonce.length = 12 := by
      unfold Record.ProtectSpec at e3
      rcases e3 with ⟨_, _, g⟩ | ⟨g1, g2, ⟨_, _, g⟩ | ⟨t, _, ⟨_, _, g⟩ | ⟨_, g5, _, _, g | ⟨_, g8, g9, g10⟩⟩⟩⟩
      · rw [g] at hcode; cases hcode
      · rw [g] at hcode; cases hcode
      · rw [g] at hcode; cases hcode
      · exact absurd hcode g.1
      · refine ⟨_, g10, ?_, ?_⟩
        · have hfl := g8.totalLen_eq
          simp only [List.length_append, sealRecord_length, Spec.innerPlaintext,
            List.length_cons, List.replicate_zero, List.length_nil, List.length_drop,
            List.length_take]
          simp only [List.length_drop] at g2
          omega
        · rw [g5]; exact hn
    obtain ⟨o, ho1, ho2, ho3⟩ := hob
    simp only [ho1, Iovec.setBytes, Iovec.bytes]
    have := ih (i + 1) { s with conn := c, evs := s.evs ++ [.sealed r] } vs' ws' on1 on1' false
      (rem - N) (idx + r.written) (ob.take idx ++ o) ho3 k3 l3 (by omega) (by omega) m2 n2
      (by rw [m4, n4, hflat]) ho2
    exact this

/-- At bytes that do not start with a complete record. -/
theorem unprotectLoop_stop (L : Lib) (A : Allocator) (f : Nat → Record.Fault)
    (fuel i : Nat) (s : State) (vs : List Iovec) (on rem : Nat)
    (done : List (BufId × Bytes)) (hc : Cursor vs on) (hge : rem ≥ s.conn.recordOverhead)
    (hno : Spec.firstRecord (ahead vs on) = none) :
    unprotectLoop L A f (fuel + 1) i s vs on rem done = .ok (s, ⟨.failedPrecondition, []⟩) := by
  unfold unprotectLoop
  rw [if_pos hge]
  rcases walk_spec vs on hc with ⟨_, hw | ⟨hd, v', o', h1, h2⟩⟩ | ⟨hd, payload, rest, vs1, on1, ps, vs', on2, hfr, _⟩
  · simp only [hw, exec_bind_ok, exec_pure]
  · simp only [h1, h2, exec_bind_ok, exec_pure]
  · rw [hno] at hfr; cases hfr

theorem unprotectLoop_flat {L : Lib} {A : Allocator} {a : Record.CreateArgs}
    (hA : AllocOk A) {f : Nat → Record.Fault} (hf : ∀ j, (f j).evp = .none)
    (fuel i : Nat) (s : State) (vs ws : List Iovec) (on on' rem : Nat)
    (done : List (BufId × Bytes))
    (hr : Reach L a s.conn s.evs) (hc : Cursor vs on) (hc' : Cursor ws on')
    (hflat : ahead vs on = ahead ws on') (hrem : rem = (ahead vs on).length) :
    unprotectLoop L A f fuel i s vs on rem done = unprotectLoop L A f fuel i s ws on' rem done := by
  obtain ⟨su, hs⟩ := hr.suite
  induction fuel generalizing i s vs ws on on' rem done with
  | zero => rfl
  | succ fuel ih =>
    unfold unprotectLoop
    by_cases hge : rem ≥ s.conn.recordOverhead
    case neg => rw [if_neg hge, if_neg hge]
    rw [if_pos hge, if_pos hge]
    rcases walk_spec vs on hc with ⟨hno, hw⟩ | ⟨hd, payload, rest, vs1, on1, ps, vs', on2, hfr, k1, k2, k3, k4, k5, k6, k7⟩
    · have h1 := unprotectLoop_stop L A f fuel i s vs on rem done hc hge hno
      have h2 := unprotectLoop_stop L A f fuel i s ws on' rem done hc' hge (hflat ▸ hno)
      unfold unprotectLoop at h1 h2
      rw [if_pos hge] at h1 h2
      exact h1.trans h2.symm
    rcases walk_spec ws on' hc' with ⟨hno, _⟩ | ⟨hd', payload', rest', ws1, on1', qs, ws', on2', hfr', l1, l2, l3, l4, l5, l6, l7⟩
    · rw [← hflat, hfr] at hno; cases hno
    rw [← hflat, hfr] at hfr'
    cases hfr'
    obtain ⟨d, hd1, hd2⟩ := hA s.next payload.length
    have hgood := (hr.good hs).1
    rw [k3] at k2 l2
    obtain ⟨hsplit, hwhole⟩ := firstRecord_some hfr
    have hfl : ∀ ps, flat ps = payload → AllWF ps →
        Record.unprotect L (f i) s.conn (.buf hd) ps (.buf d) =
          Record.openFlat L (f i).key s.conn (.buf hd) payload (.buf d) := by
      intro ps h1 h2
      rw [Record.unprotect_flat L (f i) s.conn (.buf hd) ps (.buf d) hgood.nonce h2 trivial (hf i)
        (by rw [h2.totalLen_eq, h1]; simp only [Iovec.len, hd2]; omega), h1]
    simp only [k1, l1, exec_bind_ok, k3, k2, l2, State.alloc, hd1, State.crypterUnprotect,
      hfl ps k4 k5, hfl qs l4 l5]
    cases hu : Record.openFlat L (f i).key s.conn (.buf hd) payload (.buf d) with
    | error e => rfl
    | ok x =>
      obtain ⟨c', r⟩ := x
      simp only [exec_bind_ok, exec_pure]
      by_cases hcode : r.code = .ok
      case neg => rw [if_pos hcode, if_pos hcode]
      rw [if_neg (not_not_intro hcode), if_neg (not_not_intro hcode)]
      have hspl : rem = 5 + payload.length + rest.length := by
        rw [hrem, hsplit]
        have : hd.length = 5 := by rw [hwhole.header]; rfl
        simp [this]
        omega
      simp only [subSize_ok (show kHeaderLength + payload.length ≤ rem by simp [kHeaderLength]; omega), exec_bind_ok]
      refine ih (i + 1) _ vs' ws' on2 on2' _ _ ?_ k6 l6 (k7.trans l7.symm) (by rw [k7, hspl]; simp [kHeaderLength])
      have hu' := hfl ps k4 k5
      rw [hu] at hu'
      exact hr.step (op := .unprotect (f i) (.buf hd) ps (.buf d)) (by simp [Record.step, hu'])

end S2A.Frame
