import Verif.Lemmas.RecordHist
namespace S2A.Record
open HalfConn (exec_bind_eq_ok)

/-- Replace the outbound direction. -/
def Conn.withOut (c : Conn) (o : HalfConn) : Conn := { c with outC := o }

/-- Map over a computation. -/
def emap {α β : Type _} (g : α → β) : Exec α → Exec β
  | .ok a => .ok (g a)
  | .error e => .error e

theorem emap_bind {α β γ : Type _} (g : β → γ) (x : Exec α) (k : α → Exec β) :
    emap g (x >>= k) = x >>= fun a => emap g (k a) := by
  cases x <;> rfl

theorem bind_emap {α β γ : Type _} (g : α → β) (x : Exec α) (k : β → Exec γ) :
    (emap g x >>= k) = x >>= fun a => k (g a) := by
  cases x <;> rfl

theorem emap_eq_ok {α β : Type _} {g : α → β} {x : Exec α} {b : β} :
    emap g x = .ok b ↔ ∃ a, x = .ok a ∧ g a = b := by
  cases x <;> simp [emap]

theorem retrieveAndSend_withOut (c : Conn) (o : HalfConn) :
    retrieveAndSend (c.withOut o) = emap (·.withOut o) (retrieveAndSend c) := by
  unfold retrieveAndSend
  rw [emap_bind]
  show (c.handler.getStoredTickets >>= _) = _
  congr 1
  funext x
  obtain ⟨h, r⟩ := x
  cases r <;> rfl

theorem handleTickets_withOut (c : Conn) (r) (o : HalfConn) :
    handleTickets (c.withOut o) r = emap (·.withOut o) (handleTickets c r) := by
  have key : ∀ c1 : Conn, (retrieveAndSend (c1.withOut o) >>= fun c =>
      (pure { c with expecting := false, phase := Phase.done } : Exec Conn)) =
      emap (·.withOut o) (retrieveAndSend c1 >>= fun c =>
        (pure { c with expecting := false, phase := Phase.done } : Exec Conn)) := by
    intro c1
    rw [retrieveAndSend_withOut, bind_emap, emap_bind]
    congr 1
  unfold handleTickets
  show (match c.phase with | .done => _ | _ => _) = _
  cases hph : c.phase with
  | done => rfl
  | notReceived =>
    simp only
    cases hk : r.containsTicket
    · rfl
    · simp only [if_true, Bool.true_and]
      split
      · exact key { c with phase := .receiving }
      · rfl
  | receiving =>
    simp only
    cases hk : r.containsTicket
    · rfl
    · simp only [if_true, Bool.true_and]
      split
      · exact key { c with phase := .receiving }
      · rfl

theorem handleResult_withOut (L : Lib) (f : KeyFault) (c : Conn) (r) (o : HalfConn) :
    handleResult L f (c.withOut o) r =
      emap (fun x => (x.1.withOut o, x.2)) (handleResult L f c r) := by
  unfold handleResult
  cases r with
  | error e => rfl
  | ok r =>
    simp only
    cases hk : r.containsKeyUpdate
    · simp only [Bool.false_eq_true, if_false]
      rw [emap_bind]
      have := handleTickets_withOut { c with expecting := r.expecting } r o
      simp only [Conn.withOut] at this ⊢
      rw [this, bind_emap]
      rfl
    · simp only [if_true]
      rw [emap_bind]
      show (HalfConn.updateKey L f c.inC >>= _) = _
      congr 1
      funext x
      obtain ⟨i, st⟩ := x
      simp only
      split
      · rfl
      · rw [emap_bind]
        have := handleTickets_withOut { c with expecting := r.expecting, inC := i } r o
        simp only [Conn.withOut] at this ⊢
        rw [this, bind_emap]
        rfl

theorem dispatch_withOut (L : Lib) (f : KeyFault) (c : Conn) (call pt w) (o : HalfConn) :
    dispatch L f (c.withOut o) call pt w =
      emap (fun x => (x.1.withOut o, x.2)) (dispatch L f c call pt w) := by
  unfold dispatch
  rw [emap_bind]
  congr 1
  funext x
  cases x with
  | none => rfl
  | some x =>
    obtain ⟨n, t⟩ := x
    simp only
    split
    · split
      · rfl
      · split
        · rfl
        · split <;> rfl
    · split
      · rw [emap_bind]
        show (c.handler.process (pt.take n) >>= _) = _
        congr 1
        funext x
        rw [emap_bind]
        have := handleResult_withOut L f { c with handler := x.1 } x.2 o
        simp only [Conn.withOut] at this ⊢
        rw [this, bind_emap]
        congr 1
        funext y
        split <;> rfl
      · split
        · show (if c.expecting = true then _ else _) = _
          split
          · rfl
          · show (if c.phase = .receiving then _ else _) = _
            split
            · rw [retrieveAndSend_withOut, bind_emap, emap_bind]
              rfl
            · rfl
        · rfl

/-- `Unprotect` neither reads nor changes the outbound direction. -/
theorem unprotect_withOut (L : Lib) (f : Fault) (c : Conn) (hdr pl out) (o : HalfConn) :
    unprotect L f (c.withOut o) hdr pl out =
      emap (fun x => (x.1.withOut o, x.2)) (unprotect L f c hdr pl out) := by
  unfold unprotect
  show (if c.closeNotify = true then _ else _) = _
  split
  · rfl
  simp only [recordOverhead_eq]
  split
  · rfl
  split
  · rfl
  split
  · rfl
  rw [emap_bind]
  show (HalfConn.decrypt L f.evp c.inC [hdr] pl out >>= _) = _
  congr 1
  funext x
  obtain ⟨i, call, r⟩ := x
  simp only
  split
  · rw [emap_bind]; rfl
  · split
    · rfl
    · exact dispatch_withOut L f.key { c with inC := i } call _ _ o

/-- `Protect` reads and changes only the outbound direction. -/
theorem protect_congr (L : Lib) (f : EvpFault) (c d : Conn) (rt pt rec) (h : d.outC = c.outC) :
    protect L f d rt pt rec =
      emap (fun x => (d.withOut x.1.outC, x.2)) (protect L f c rt pt rec) := by
  have hd : d = d.withOut c.outC := by rw [← h]; rfl
  unfold protect
  simp only []
  split
  · rw [hd]; rfl
  by_cases hx : rec.len < totalLen pt + 22
  · rw [if_pos (c := rec.len < totalLen pt + d.recordOverhead) hx,
      if_pos (c := rec.len < totalLen pt + c.recordOverhead) hx, hd]; rfl
  rw [if_neg (c := rec.len < totalLen pt + d.recordOverhead) hx,
    if_neg (c := rec.len < totalLen pt + c.recordOverhead) hx]
  cases rec with
  | null n => rfl
  | buf rb =>
    simp only [h]
    rw [emap_bind]
    congr 1
    funext rb'
    split
    · rw [hd]; rfl
    · rw [emap_bind]
      congr 1
      funext rest
      rw [emap_bind]
      congr 1
      funext x
      obtain ⟨o, call, r⟩ := x
      simp only
      split <;> rfl

/-! ### Interleavings -/

theorem step_in (L : Lib) (c : Conn) (op : Op) (o : HalfConn) (h : op.isOut = false) :
    step L (c.withOut o) op = emap (fun x => (x.1.withOut o, x.2)) (step L c op) := by
  cases op with
  | protect => cases h
  | updateOutboundKey => cases h
  | unprotect f hdr pl out =>
    simp only [step]
    rw [unprotect_withOut, bind_emap, emap_bind]
    rfl

theorem step_out (L : Lib) (c d : Conn) (op : Op) (h : op.isOut = true) (hd : d.outC = c.outC) :
    step L d op = emap (fun x => (d.withOut x.1.outC, x.2)) (step L c op) := by
  cases op with
  | protect f rt pt rec =>
    simp only [step]
    rw [protect_congr L f c d rt pt rec hd, bind_emap, emap_bind]
    rfl
  | updateOutboundKey f =>
    simp only [step, updateOutboundKey, hd]
    rw [emap_bind]
    cases HalfConn.updateKey L f c.outC <;> rfl
  | unprotect => cases h

theorem step_isOut {L : Lib} {c op c' ev} (h : step L c op = .ok (c', ev)) :
    ev.isOut = op.isOut := by
  cases op with
  | protect f rt pt rec =>
    simp only [step, exec_bind_eq_ok] at h
    obtain ⟨x, _, h2⟩ := h
    cases h2; rfl
  | unprotect f hdr pl out =>
    simp only [step, exec_bind_eq_ok] at h
    obtain ⟨x, _, h2⟩ := h
    cases h2; rfl
  | updateOutboundKey f =>
    simp only [step, exec_bind_eq_ok] at h
    obtain ⟨x, _, h2⟩ := h
    cases h2; rfl

theorem withOut_self (c : Conn) : c.withOut c.outC = c := rfl

/-- A history splits into its outbound and its inbound part.  `cI` and `cO` are the states
in which the two parts are run separately. -/
theorem run_split {L : Lib} {ops c c' evs} (h : run L c ops = .ok (c', evs))
    (cI cO : Conn) (hI : cI = c.withOut cI.outC) (hO : cO.outC = c.outC) :
    run L cO (ops.filter Op.isOut) = .ok (cO.withOut c'.outC, evs.filter Event.isOut) ∧
    run L cI (ops.filter (!·.isOut)) = .ok (c'.withOut cI.outC, evs.filter (!·.isOut)) := by
  induction ops generalizing c evs cI cO with
  | nil =>
    cases h
    refine ⟨?_, ?_⟩
    · simp [run, ← hO, withOut_self]
    · simp [run, ← hI]
  | cons op ops ih =>
    obtain ⟨c1, ev, es, h1, h2, h3⟩ := run_cons h
    subst h3
    have hev := step_isOut h1
    cases ho : op.isOut
    · rw [ho] at hev
      simp only [List.filter_cons, ho, hev, Bool.not_false, if_true, Bool.false_eq_true, if_false]
      have hs := step_in L c op cI.outC ho
      rw [← hI, h1] at hs
      have hout : c1.outC = c.outC := by
        cases op with
        | unprotect f hdr pl out =>
          simp only [step, exec_bind_eq_ok] at h1
          obtain ⟨⟨x, r⟩, g1, g2⟩ := h1
          cases g2
          exact (unprotect_frame g1).1
        | _ => cases ho
      obtain ⟨i1, i2⟩ := ih h2 (c1.withOut cI.outC) cO rfl (by rw [hO, hout])
      refine ⟨i1, ?_⟩
      simp only [run, hs, emap, exec_bind_ok]
      rw [i2]
      rfl
    · rw [ho] at hev
      simp only [List.filter_cons, ho, hev, Bool.not_true, if_true, Bool.false_eq_true, if_false]
      have hs := step_out L c cO op ho hO
      rw [h1] at hs
      have hs2 := step_out L c c op ho rfl
      rw [h1] at hs2
      have hc1 : c1 = c.withOut c1.outC := by
        simp only [emap, Except.ok.injEq, Prod.mk.injEq, and_true] at hs2
        exact hs2
      obtain ⟨i1, i2⟩ := ih h2 cI (cO.withOut c1.outC) (by rw [hI, hc1]; rfl) rfl
      refine ⟨?_, i2⟩
      simp only [run, hs, emap, exec_bind_ok]
      rw [i1]
      rfl

/-- Conversely, if both parts have no undefined behaviour, neither has the whole. -/
theorem run_join {L : Lib} {ops c cI cO x y} (hI : cI = c.withOut cI.outC)
    (hO : cO.outC = c.outC) (h1 : run L cO (ops.filter Op.isOut) = .ok x)
    (h2 : run L cI (ops.filter (!·.isOut)) = .ok y) : ∃ z, run L c ops = .ok z := by
  induction ops generalizing c cI cO x y with
  | nil => exact ⟨_, rfl⟩
  | cons op ops ih =>
    cases ho : op.isOut
    · simp only [List.filter_cons, ho, Bool.not_false, if_true, Bool.false_eq_true,
        if_false] at h1 h2
      obtain ⟨cI1, ev, es, g1, g2, _⟩ := run_cons (c' := y.1) (evs := y.2) h2
      have hs := step_in L c op cI.outC ho
      rw [← hI, g1] at hs
      obtain ⟨⟨c1, ev'⟩, k1, k2⟩ := emap_eq_ok.1 hs.symm
      simp only [Prod.mk.injEq] at k2
      have hout : c1.outC = c.outC := by
        cases op with
        | unprotect f hdr pl out =>
          simp only [step, exec_bind_eq_ok] at k1
          obtain ⟨⟨x, r⟩, g1, g2⟩ := k1
          cases g2
          exact (unprotect_frame g1).1
        | _ => cases ho
      obtain ⟨z, hz⟩ := ih (c := c1) (cI := cI1) (cO := cO) (by rw [← k2.1]; rfl)
        (by rw [hO, hout]) h1 g2
      exact ⟨_, by simp [run, k1, hz]; rfl⟩
    · simp only [List.filter_cons, ho, Bool.not_true, if_true, Bool.false_eq_true,
        if_false] at h1 h2
      obtain ⟨cO1, ev, es, g1, g2, _⟩ := run_cons (c' := x.1) (evs := x.2) h1
      have hs := step_out L cO c op ho hO.symm
      rw [g1] at hs
      obtain ⟨z, hz⟩ := ih (c := c.withOut cO1.outC) (cI := cI) (cO := cO1)
        (by rw [hI]; rfl) rfl g2 h2
      exact ⟨_, by simp only [run, hs, emap, exec_bind_ok, hz]; rfl⟩

end S2A.Record
