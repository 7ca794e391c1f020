import Verif.Lemmas.FrameFlat
/-
Histories of calls on a frame protector.
-/
namespace S2A.Frame
open HalfConn (exec_bind_eq_ok)
open Spec (AllocOk)

/-- A protector as `Create` returns it. -/
def Created (L : Lib) (o : Options) (s : State) : Prop :=
  ∃ fIn fOut, create L fIn fOut o = .ok (.ok s)

/-- A protector created with the options `o`, after some history of calls with any buffers
and any failures of the library. -/
def Reach (L : Lib) (A : Allocator) (o : Options) (s : State) : Prop :=
  ∃ s0 ops evs, Created L o s0 ∧ run L A s0 ops = .ok (s, evs)

/-- The arguments with which the crypter is created. -/
def Options.args (o : Options) : Record.CreateArgs := { o.crypter with hasSender := true }

theorem created_inv {L : Lib} {o s} (h : Created L o s) :
    o.hasAllocator = true ∧ o.hasDestroy = true ∧ o.crypter.hasLogger = true ∧
      Record.Created L o.args s.conn ∧ s.maxRecordSize = 16406 ∧ s.next = 0 ∧ s.mem = [] ∧
      s.evs = [] := by
  obtain ⟨fi, fo, h⟩ := h
  unfold create at h
  split at h
  · cases h
  next hc =>
  simp only [Bool.not_eq_true, Bool.or_eq_false_iff, Bool.not_eq_false'] at hc
  simp only [exec_bind_eq_ok] at h
  obtain ⟨x, h1, h2⟩ := h
  cases x with
  | error e => cases h2
  | ok c =>
    cases h2
    exact ⟨hc.1.1, hc.1.2, hc.2, ⟨fi, fo, h1⟩, rfl, rfl, rfl, rfl⟩

/-- What calls leave alone. -/
structure Steps (L : Lib) (s s' : State) : Prop where
  calls : Calls L s s'
  size : s'.maxRecordSize = s.maxRecordSize
  quiet : ∀ st, .outboundUpdated st ∈ s'.evs → .outboundUpdated st ∈ s.evs

theorem Steps.refl {L : Lib} (s : State) : Steps L s s := ⟨.refl s, rfl, fun _ h => h⟩

theorem Steps.trans {L : Lib} {s1 s2 s3 : State} (h : Steps L s1 s2) (h' : Steps L s2 s3) :
    Steps L s1 s3 :=
  ⟨h.calls.trans h'.calls, h'.size.trans h.size, fun st x => h.quiet st (h'.quiet st x)⟩

theorem crypterProtect_steps {L : Lib} {f s pt rec s' r}
    (h : State.crypterProtect L f s pt rec = .ok (s', r)) : Steps L s s' := by
  simp only [State.crypterProtect, exec_bind_eq_ok] at h
  obtain ⟨⟨c, r'⟩, h1, h2⟩ := h
  cases h2
  exact ⟨⟨[.protect f .applicationData pt rec], [.sealed r'],
    by simp [Record.run, Record.step, h1], rfl⟩, rfl, by simp⟩

theorem crypterUnprotect_steps {L : Lib} {f s hd pl out s' r}
    (h : State.crypterUnprotect L f s hd pl out = .ok (s', r)) : Steps L s s' := by
  simp only [State.crypterUnprotect, exec_bind_eq_ok] at h
  obtain ⟨⟨c, r'⟩, h1, h2⟩ := h
  cases h2
  exact ⟨⟨[.unprotect f (.buf hd) pl out], [.opened r'],
    by simp [Record.run, Record.step, h1], rfl⟩, rfl, by simp⟩

theorem protectLoop_steps {L : Lib} {f id fuel i s vs on first rem idx out s' st o}
    (h : protectLoop L f id fuel i s vs on first rem idx out = .ok (s', st, o)) : Steps L s s' := by
  induction fuel generalizing i s vs on first rem idx out with
  | zero => cases h
  | succ fuel ih =>
    unfold protectLoop at h
    split at h
    case isFalse => cases h; exact .refl _
    simp only [exec_bind_eq_ok] at h
    generalize (if rem < kMaxPlaintext then rem else kMaxPlaintext) = n at h
    obtain ⟨x, _, room, _, slot, _, ⟨s1, r⟩, h1, h2⟩ := h
    have := crypterProtect_steps h1
    simp only at h2
    split at h2
    · cases h2; exact ⟨this.calls, this.size, this.quiet⟩
    split at h2
    · cases h2; exact ⟨this.calls, this.size, this.quiet⟩
    · exact this.trans (ih h2)

theorem protect_steps {L : Lib} {A f s vs s' r}
    (h : protect L A f s vs = .ok (s', r)) : Steps L s s' := by
  simp only [protect, State.alloc, protectInto, exec_bind_eq_ok] at h
  obtain ⟨⟨s1, st, o⟩, h1, h2⟩ := h
  have := protectLoop_steps h1
  simp only at h2
  split at h2
  · cases h2; exact ⟨this.calls, this.size, this.quiet⟩
  · cases h2; exact ⟨this.calls, this.size, this.quiet⟩

theorem unprotectLoop_steps {L : Lib} {A f fuel i s vs on rem done s' r}
    (h : unprotectLoop L A f fuel i s vs on rem done = .ok (s', r)) : Steps L s s' := by
  induction fuel generalizing i s vs on rem done with
  | zero => cases h
  | succ fuel ih =>
    unfold unprotectLoop at h
    split at h
    case isFalse => cases h; exact .refl _
    simp only [exec_bind_eq_ok] at h
    obtain ⟨x, _, h⟩ := h
    split at h
    · cases h; exact .refl _
    simp only [exec_bind_eq_ok] at h
    obtain ⟨x, _, h⟩ := h
    split at h
    · cases h; exact .refl _
    simp only [exec_bind_eq_ok, State.alloc] at h
    obtain ⟨⟨s1, r⟩, h1, h2⟩ := h
    have h3 := crypterUnprotect_steps h1
    simp only at h2
    split at h2
    · cases h2
      refine ⟨?_, ?_, ?_⟩
      · obtain ⟨o, e, c1, c2⟩ := h3.calls
        exact ⟨o, e, by rw [destroyAll_eq]; exact c1, by rw [destroyAll_eq]; exact c2⟩
      · rw [destroyAll_eq]; exact h3.size
      · rw [destroyAll_eq]; exact h3.quiet
    · simp only [exec_bind_eq_ok] at h2
      obtain ⟨rem', _, h2⟩ := h2
      have := ih h2
      exact ⟨Calls.trans (s2 := s1) h3.calls this.calls, this.size.trans h3.size,
        fun st x => h3.quiet st (this.quiet st x)⟩

theorem unprotectInto_steps {L : Lib} {f s vs out s' st n o}
    (h : unprotectInto L f s vs out = .ok (s', st, n, o)) : Steps L s s' := by
  unfold unprotectInto at h
  split at h
  · cases h; exact .refl s
  simp only [exec_bind_eq_ok] at h
  obtain ⟨x, _, h⟩ := h
  split at h
  · cases h; exact .refl s
  simp only [exec_bind_eq_ok] at h
  obtain ⟨x, _, h⟩ := h
  split at h
  · cases h; exact .refl s
  simp only [exec_bind_eq_ok] at h
  obtain ⟨⟨s1, r⟩, h1, h2⟩ := h
  have h3 := crypterUnprotect_steps h1
  simp only at h2
  split at h2 <;> (cases h2; exact h3)

theorem step_steps {L : Lib} {A s op s' e} (h : step L A s op = .ok (s', e)) : Steps L s s' := by
  cases op with
  | protect f vs =>
    simp only [step, exec_bind_eq_ok] at h
    obtain ⟨⟨s1, r⟩, h1, h2⟩ := h
    cases h2
    exact protect_steps h1
  | protectInto f vs out =>
    simp only [step, protectInto, exec_bind_eq_ok] at h
    obtain ⟨⟨s1, st, o⟩, h1, h2⟩ := h
    cases h2
    exact protectLoop_steps h1
  | unprotect f vs =>
    simp only [step, exec_bind_eq_ok] at h
    obtain ⟨⟨s1, r⟩, h1, h2⟩ := h
    cases h2
    unfold unprotect at h1
    simp only at h1
    split at h1
    · cases h1; exact .refl _
    · exact unprotectLoop_steps h1
  | unprotectInto f vs out =>
    simp only [step, exec_bind_eq_ok] at h
    obtain ⟨⟨s1, st, n, o⟩, h1, h2⟩ := h
    cases h2
    exact unprotectInto_steps h1

theorem run_steps {L : Lib} {A ops s s' es} (h : run L A s ops = .ok (s', es)) : Steps L s s' := by
  induction ops generalizing s es with
  | nil => cases h; exact .refl _
  | cons op ops ih =>
    simp only [run, exec_bind_eq_ok] at h
    obtain ⟨⟨s1, e⟩, h1, ⟨s2, es'⟩, h2, h3⟩ := h
    cases h3
    exact (step_steps h1).trans (ih h2)

/-- The crypter of a reachable protector is a reachable connection. -/
theorem Reach.conn {L : Lib} {A o s} (h : Reach L A o s) :
    Record.Reach L o.args s.conn s.evs ∧ s.maxRecordSize = 16406 := by
  obtain ⟨s0, ops, evs, h1, h2⟩ := h
  obtain ⟨_, _, _, c1, c2, _, _, c3⟩ := created_inv h1
  obtain ⟨⟨o, e, q1, q2⟩, q3⟩ := run_steps h2
  refine ⟨?_, q3.trans c2⟩
  have := Record.Reach.run (evs := s0.evs) ⟨s0.conn, [], c1, by rw [c3]; rfl⟩ q1
  rw [q2]
  exact this

/-- A frame protector never updates its outbound key. -/
theorem Reach.quiet {L : Lib} {A o s} (h : Reach L A o s) (st : StatusCode) :
    .outboundUpdated st ∉ s.evs := by
  obtain ⟨s0, ops, evs, h1, h2⟩ := h
  intro hm
  have := (run_steps h2).quiet st hm
  rw [(created_inv h1).2.2.2.2.2.2.2] at this
  cases this

theorem run_append {L : Lib} {A ops1 ops2 s s1 s2 e1 e2}
    (h1 : run L A s ops1 = .ok (s1, e1)) (h2 : run L A s1 ops2 = .ok (s2, e2)) :
    run L A s (ops1 ++ ops2) = .ok (s2, e1 ++ e2) := by
  induction ops1 generalizing s e1 with
  | nil => cases h1; simpa using h2
  | cons op ops ih =>
    simp only [run, exec_bind_eq_ok] at h1
    obtain ⟨⟨s', e⟩, g1, ⟨s'', es'⟩, g2, g3⟩ := h1
    cases g3
    simp [run, g1, ih g2]

theorem Reach.step {L : Lib} {A o s op s' e} (h : Reach L A o s)
    (hs : Frame.step L A s op = .ok (s', e)) : Reach L A o s' := by
  obtain ⟨s0, ops, evs, h1, h2⟩ := h
  exact ⟨s0, ops ++ [op], evs ++ [e], h1, run_append h2 (by simp [run, hs])⟩

/-! ### Whole calls -/

theorem protectInto_call {L : Lib} {a : Record.CreateArgs}
    {f : Nat → EvpFault} {s : State} {vs : List Iovec} {id : BufId} {ob : Bytes}
    (hr : Record.Reach L a s.conn s.evs) :
    ∃ s' st ob', protectInto L f s id vs (.buf ob) = .ok (s', st, .buf ob') ∧
      ob'.length = ob.length ∧ OutOnly s s' ∧ Calls L s s' ∧
      s'.mem = (if st = .ok then s.mem else s.mem ++ [.destroy id ob.length]) ∧
      (st = .ok → totalLen vs + 22 * Spec.recordCount (totalLen vs) ≤ ob.length ∧
        ∀ d, HalfConn.At L s.conn.outC d →
          HalfConn.At L s'.conn.outC (d.skip (Spec.recordCount (totalLen vs))) ∧
          d.seq + Spec.recordCount (totalLen vs) ≤ 2 ^ 64 ∧
          (AllWF vs → ob' = (Spec.messageRecords L d (flat vs)).flatten ++
            ob.drop (totalLen vs + 22 * Spec.recordCount (totalLen vs)))) ∧
      (∀ d, HalfConn.At L s.conn.outC d → (∀ j, f j = .none) → AllWF vs →
        totalLen vs + 22 * Spec.recordCount (totalLen vs) ≤ ob.length →
        d.seq + Spec.recordCount (totalLen vs) ≤ 2 ^ 64 → st = .ok) := by
  obtain ⟨su, hs⟩ := hr.suite
  obtain ⟨s', st, ob', h1, h2, h3, h4, h5, h6, h7⟩ := protectLoop_spec L f id (totalLen vs + 2) 0 s vs
    0 (decide (totalLen vs = 0)) (totalLen vs) 0 ob (hr.good hs).2.nonce (curLe_start vs) (by omega)
    (by split <;> omega) (by simp) (Nat.zero_le _)
  refine ⟨s', st, ob', h1, h2, h3, h4, h6, ?_⟩
  rcases h7 with ⟨a1, a2, _⟩ | ⟨_, a2, a3⟩
  · simp at a2; exact absurd a1 a2
  · refine ⟨fun hok => ?_, fun d => ?_⟩
    · obtain ⟨b1, b2, b3⟩ := a2 hok
      refine ⟨by omega, fun d hd => ?_⟩
      obtain ⟨c1, c2, c3⟩ := b3 d hd
      refine ⟨c1, c2, fun hw => ?_⟩
      have := c3 hw
      simpa [ahead] using this
    · have := a3 d
      simpa using this

/-- The allocating `Protect`. -/
theorem protect_call {L : Lib} {A : Allocator} {a : Record.CreateArgs} (hA : AllocOk A)
    {f : Nat → EvpFault} {s : State} {vs : List Iovec} (hr : Record.Reach L a s.conn s.evs) :
    ∃ s' res, protect L A f s vs = .ok (s', res) ∧ s'.next = s.next + 1 ∧
      s'.conn = { s.conn with outC := s'.conn.outC } ∧
      ((res.status = .ok ∧
        s'.mem = s.mem ++ [.alloc (.heap s.next) (numberBytesToProtect s (totalLen vs))] ∧
        ∃ b, res.bytes = [(.heap s.next, b)] ∧ b.length = numberBytesToProtect s (totalLen vs) ∧
          ∀ d, HalfConn.At L s.conn.outC d →
            HalfConn.At L s'.conn.outC (d.skip (Spec.recordCount (totalLen vs))) ∧
            d.seq + Spec.recordCount (totalLen vs) ≤ 2 ^ 64 ∧
            (AllWF vs → b = (Spec.messageRecords L d (flat vs)).flatten)) ∨
       (res.status ≠ .ok ∧ res.bytes = [] ∧
        s'.mem = s.mem ++ [.alloc (.heap s.next) (numberBytesToProtect s (totalLen vs)),
          .destroy (.heap s.next) (numberBytesToProtect s (totalLen vs)),
          .destroy (.heap s.next) (numberBytesToProtect s (totalLen vs))] ∧
        ∀ d, HalfConn.At L s.conn.outC d → (∀ j, f j = .none) → AllWF vs →
          2 ^ 64 < d.seq + Spec.recordCount (totalLen vs))) := by
  obtain ⟨ob, ho1, ho2⟩ := hA s.next (numberBytesToProtect s (totalLen vs))
  obtain ⟨s', st, ob', h1, h2, h3, h4, h5, h6, h7⟩ := protectInto_call (f := f)
    (s := (s.alloc A (numberBytesToProtect s (totalLen vs))).1) (vs := vs) (id := .heap s.next)
    (ob := ob) (a := a) (L := L) hr
  have hn := numberBytesToProtect_eq s (totalLen vs)
  unfold protect
  simp only [State.alloc] at h1 ⊢
  rw [ho1, h1]
  simp only [exec_bind_ok]
  by_cases hst : st = .ok
  · rw [if_neg (not_not_intro hst)]
    obtain ⟨x1, x2⟩ := h6 hst
    refine ⟨s', _, rfl, h3.next, h3.conn, Or.inl ⟨rfl, ?_, ob', rfl, h2.trans ho2, fun d hd => ?_⟩⟩
    · rw [h5, if_pos hst]; rfl
    · obtain ⟨y1, y2, y3⟩ := x2 d hd
      refine ⟨y1, y2, fun hw => ?_⟩
      rw [y3 hw, List.drop_of_length_le (by omega), List.append_nil]
  · rw [if_pos hst]
    refine ⟨_, _, rfl, h3.next, h3.conn, Or.inr ⟨hst, rfl, ?_, fun d hd hf hw => ?_⟩⟩
    · simp only [State.destroy, Iovec.len]
      rw [h5, if_neg hst, h2, ho2]
      simp [State.alloc]
    · apply Classical.byContradiction
      intro hx
      exact hst (h7 d hd hf hw (by omega) (by omega))

/-- The allocating `Unprotect`. -/
theorem unprotect_call {L : Lib} {A : Allocator} {a : Record.CreateArgs} {su : Spec.Suite}
    (hA : AllocOk A) (hs : Spec.suite a.ciphersuite = some su) {f : Nat → Record.Fault} {s : State}
    {vs : List Iovec} (hr : Record.Reach L a s.conn s.evs) (hv : Spec.NonEmptyBufs vs) :
    unprotect L A f s vs = .error .negativeShift ∨
    ∃ s' res new, unprotect L A f s vs = .ok (s', res) ∧ Calls L s s' ∧
      s'.mem = s.mem ++ new ∧
      (∀ id, new.countP (Spec.allocates id) ≤ 1 ∧
        (new.countP (Spec.allocates id) ≠ 0 → ∃ j, id = .heap j ∧ s.next ≤ j ∧ j < s'.next)) ∧
      ((res.status = .ok ∧ 22 ≤ (flat vs).length ∧ (∀ id, new.countP (Spec.destroys id) = 0 ∧
          (res.bytes.map (·.1)).count id = new.countP (Spec.allocates id)) ∧
        ∃ recs tail out, flat vs = (recs.map fun r => r.1 ++ r.2).flatten ++ tail ∧
          tail.length < 22 ∧ (∀ r ∈ recs, Spec.Whole r.1 r.2) ∧
          res.bytes.map (·.2) = out ∧
          Spec.Accepted L (Record.inPos L a su s.evs) recs out (Record.inPos L a su s'.evs)) ∨
       (res.status ≠ .ok ∧ res.bytes = [] ∧ ∀ id, new.countP (Spec.destroys id) =
          new.countP (Spec.allocates id)) ∨
       (res.status = .failedPrecondition ∧ res.bytes = [] ∧
          (∀ id, new.countP (Spec.destroys id) = 0) ∧ ¬ Spec.Framed (flat vs))) := by
  unfold unprotect
  simp only
  have hfl := hv.wf.totalLen_eq
  have h22 : s.conn.recordOverhead = 22 := Record.recordOverhead_eq _
  by_cases hlt : totalLen vs < s.conn.recordOverhead
  · rw [if_pos hlt]
    exact Or.inr ⟨s, _, [], rfl, .refl s, by simp, by simp, Or.inr (Or.inl ⟨by simp, rfl, by simp⟩)⟩
  · rw [if_neg hlt]
    rcases unprotectLoop_spec hA hs f (totalLen vs + 1) 0 s vs 0 (totalLen vs) [] hr (cursor_start hv)
      (by simp [ahead, hfl]) (by omega) with h | ⟨s', res, new, h1, h2, h3, h4, h5, h6, h7⟩
    · exact Or.inl h
    · refine Or.inr ⟨s', res, new, h1, h2, h4, h6, ?_⟩
      simp only [ahead, List.drop_zero, List.map_nil, List.count_nil, Nat.zero_add,
        List.nil_append] at h7
      rcases h7 with ⟨a1, a2, recs, tail, out, a3, a4, a5, a6, a7⟩ | h7 | h7
      · exact Or.inl ⟨a1, by omega, a2, recs, tail, out, a3, a4, a5, a6, a7⟩
      · exact Or.inr (Or.inl h7)
      · exact Or.inr (Or.inr h7)

/-- The non-allocating `Unprotect`. -/
theorem unprotectInto_call {L : Lib} {a : Record.CreateArgs} {su : Spec.Suite}
    (hs : Spec.suite a.ciphersuite = some su) {f : Record.Fault} {s : State}
    {vs : List Iovec} {out : Iovec} (hr : Record.Reach L a s.conn s.evs)
    (hv : Spec.NonEmptyBufs vs) (ho : out.WF) :
    (((flat vs).length < 22 ∨ Spec.firstRecord (flat vs) = none) ∧
      ∃ n, unprotectInto L f s vs out = .ok (s, .failedPrecondition, n, out)) ∨
    ∃ hd payload rest ps, 22 ≤ (flat vs).length ∧
      Spec.firstRecord (flat vs) = some (hd, payload, rest) ∧ flat ps = payload ∧ AllWF ps ∧
      (unprotectInto L f s vs out = .error .negativeShift ∨
       ∃ c r, Record.unprotect L f s.conn (.buf hd) ps out = .ok (c, r) ∧ r.out.len = out.len ∧
         unprotectInto L f s vs out = .ok ({ s with conn := c, evs := s.evs ++ [.opened r] },
           convertCode r.code, if r.code = .ok then r.written else 0, r.out)) := by
  unfold unprotectInto numberBytesToUnprotect
  have hfl := hv.wf.totalLen_eq
  have h22 : s.conn.recordOverhead = 22 := Record.recordOverhead_eq _
  rw [h22]
  by_cases hlt : totalLen vs < 22
  · rw [if_pos hlt]
    exact Or.inl ⟨Or.inl (by omega), out.len, by simp⟩
  rw [if_neg hlt]
  have hk : kHeaderLength = 5 := rfl
  rw [if_neg (by omega)]
  rcases walk_spec vs 0 (cursor_start hv) with ⟨hno, hw⟩ |
    ⟨hd, payload, rest, vs1, on1, ps, vs', on2, hfr, k1, k2, k3, k4, k5, k6, k7⟩
  · simp only [ahead, List.drop_zero] at hno
    refine Or.inl ⟨Or.inr hno, 0, ?_⟩
    rcases hw with hw | ⟨hd, v', o', h1, h2⟩
    · simp only [hw, exec_bind_ok, exec_pure]
    · simp only [h1, h2, exec_bind_ok, exec_pure]
  · simp only [ahead, List.drop_zero] at hfr
    refine Or.inr ⟨hd, payload, rest, ps, by omega, hfr, k4, k5, ?_⟩
    simp only [k1, k2, exec_bind_ok, State.crypterUnprotect]
    rcases Record.unprotect_safe' (L := L) (f := f) (header := .buf hd) (payload := ps) (out := out)
      (hr.good hs).1 hr.safe k5 ho with he | ⟨c', r, he, _, hlen, _⟩
    · left; rw [he]; rfl
    · right
      refine ⟨c', r, he, hlen, ?_⟩
      simp only [he, exec_bind_ok, exec_pure]
      by_cases hcode : r.code = .ok
      · rw [if_neg (not_not_intro hcode), if_pos hcode, hcode]; rfl
      · rw [if_pos hcode, if_neg hcode]

end S2A.Frame
