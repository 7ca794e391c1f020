import Verif.Lemmas.Ends
import Verif.Props.Frame
/-
C87: every call on a frame protector ends, and how much it does.

The loops of the model that are not recursions over a list stop with `diverges` after a number
of iterations.  The first theorem says that this is never what stops them; the second that
nothing depends on that number; the others bound the calls of the crypter, each of which is one
AEAD operation on one record at most.
-/
namespace S2A.Frame
open Demo

set_option maxRecDepth 100000

/-! ## C87: every call ends, after work in proportion to its input -/

/-- Creating a frame protector, and any call on it in any state it can be in: with any library,
allocator and library failures, and any buffers at all, null or not and consistent or not, it does
not go on for ever. -/
theorem C87_every_call_ends (L : Lib) (A : Allocator) (o : Options) (fIn fOut : KeyFault) :
    create L fIn fOut o ≠ .error .diverges ∧
    ∀ s, Reach L A o s → ∀ op, step L A s op ≠ .error .diverges :=
  ⟨(create_ends L fIn fOut o).ne, fun s hr op => (step_ends L A o.args s hr.conn.1 op).ne⟩

/-- The calls still to come do not go on for ever either. -/
theorem C87_every_history_ends (L : Lib) (A : Allocator) (o : Options) (s : State)
    (hr : Reach L A o s) (ops : List Op) : run L A s ops ≠ .error .diverges := by
  induction ops generalizing s with
  | nil => simp [run]
  | cons op ops ih =>
    unfold run
    refine (ends_bind ⟨(C87_every_call_ends L A o .none .none).2 s hr op⟩ fun x hx => ?_).ne
    exact ends_bind ⟨ih x.1 (hr.step hx)⟩ fun y _ => ends_pure _

/-- Not vacuous, and not for the sake of a result: a null buffer of length 22 is undefined
behaviour, which is reached at once. -/
example : Reach Lib.toy alloc rightO rightS ∧
    unprotect Lib.toy alloc (fun _ => .none) rightS [.null 22] = .error .assertFail :=
  ⟨right_reach, by decide +kernel⟩

/-- A message in three buffers and an empty one: one record each. -/
example : (match run Lib.toy alloc leftS [.protect (fun _ => .none) [.buf [1, 2], .buf [], .buf [3]],
      .protect (fun _ => .none) []] with
    | .ok (s', _) => s'.evs.length
    | _ => 0) = 2 := by decide +kernel

/-- The bounds on the number of iterations in the model have no influence: every loop gives the
same with any larger bound. -/
theorem C87_bounds_are_never_felt (L : Lib) (A : Allocator) (o : Options) (s : State)
    (hr : Reach L A o s) (vs : List Iovec) (k : Nat) :
    (∀ f id out, protectInto L f s id vs out =
      protectLoop L f id (totalLen vs + 2 + k) 0 s vs 0 (decide (totalLen vs = 0)) (totalLen vs) 0
        out) ∧
    (∀ f, 22 ≤ totalLen vs → unprotect L A f s vs =
      unprotectLoop L A f (totalLen vs + 1 + k) 0 s vs 0 (totalLen vs) []) ∧
    (∀ b, s.conn.handler.process b =
      s.conn.handler.loop (b.length + 1 + k) b false false) := by
  refine ⟨fun f id out => ?_, fun f h22 => ?_, fun b => ?_⟩
  · have he : Ends (protectInto L f s id vs out) := by
      apply protectLoop_ends; split <;> omega
    induction k with
    | zero => rfl
    | succ k ih =>
      rw [ih] at he
      rw [← Nat.add_assoc, protectLoop_more L f id _ _ _ _ _ _ _ _ _ he, ← ih]
  · have he : Ends (unprotectLoop L A f (totalLen vs + 1) 0 s vs 0 (totalLen vs) []) :=
      unprotectLoop_stops L A o.args f _ _ s hr.conn.1 _ _ _ _ (by omega)
    have hu : unprotect L A f s vs = unprotectLoop L A f (totalLen vs + 1) 0 s vs 0 (totalLen vs) [] := by
      unfold unprotect
      dsimp only
      rw [if_neg (by rw [Record.recordOverhead_eq]; omega)]
    rw [hu]
    induction k with
    | zero => rfl
    | succ k ih =>
      rw [ih] at he
      rw [← Nat.add_assoc, unprotectLoop_more L A f _ _ _ _ _ _ _ he, ← ih]
  · have he := Handler.process_ends hr.conn.1.safe b
    induction k with
    | zero => rfl
    | succ k ih =>
      rw [ih] at he
      rw [← Nat.add_assoc, Handler.loop_more _ _ _ _ _ he, ← ih]

/-- In any state, with any buffers: `Protect` seals one record for every 16384 bytes begun at
most, and one for an empty message. -/
theorem C87_protect_work (L : Lib) (s s' : State) (f : Nat → EvpFault) (vs : List Iovec) :
    (∀ A r, protect L A f s vs = .ok (s', r) → ∃ new, s'.evs = s.evs ++ new ∧
      new.length ≤ max 1 ((totalLen vs + 16383) / 16384)) ∧
    (∀ id out st out', protectInto L f s id vs out = .ok (s', st, out') →
      ∃ new, s'.evs = s.evs ++ new ∧ new.length ≤ max 1 ((totalLen vs + 16383) / 16384)) := by
  have hb : ∀ {b : Bool} {n k : Nat}, n ≤ max (if b = true then 1 else 0) k → n ≤ max 1 k := by
    intro b n k h; split at h <;> omega
  refine ⟨fun A r h => ?_, fun id out st out' h => ?_⟩
  · simp only [protect, State.alloc, protectInto, HalfConn.exec_bind_eq_ok] at h
    obtain ⟨⟨s1, st, o⟩, h1, h2⟩ := h
    obtain ⟨new, g1, g2⟩ := protectLoop_work _ _ _ _ _ _ _ _ _ _ _ _ _ _ _ h1
    refine ⟨new, ?_, hb g2⟩
    dsimp only at h2
    split at h2 <;> (cases h2; exact g1)
  · obtain ⟨new, g1, g2⟩ := protectLoop_work _ _ _ _ _ _ _ _ _ _ _ _ _ _ _ h
    exact ⟨new, g1, hb g2⟩

/-- In any state, with any buffers: `Unprotect` opens one record for every 22 bytes at most, and
the form for a single record one at most. -/
theorem C87_unprotect_work (L : Lib) (s s' : State) (vs : List Iovec) :
    (∀ A f r, unprotect L A f s vs = .ok (s', r) → ∃ new, s'.evs = s.evs ++ new ∧
      new.length ≤ totalLen vs / 22) ∧
    (∀ f out st n out', unprotectInto L f s vs out = .ok (s', st, n, out') →
      ∃ new, s'.evs = s.evs ++ new ∧ new.length ≤ 1) := by
  refine ⟨fun A f r h => ?_, fun f out st n out' h => ?_⟩
  · unfold unprotect at h
    dsimp only at h
    split at h
    · cases h; exact ⟨[], by simp, by simp⟩
    · obtain ⟨new, g1, g2⟩ := unprotectLoop_work _ _ _ _ _ _ _ _ _ _ _ _ h
      exact ⟨new, g1, by omega⟩
  · unfold unprotectInto at h
    split at h
    · cases h; exact ⟨[], by simp, by simp⟩
    simp only [HalfConn.exec_bind_eq_ok] at h
    obtain ⟨x, _, h⟩ := h
    split at h
    · cases h; exact ⟨[], by simp, by simp⟩
    simp only [HalfConn.exec_bind_eq_ok] at h
    obtain ⟨y, _, h⟩ := h
    split at h
    · cases h; exact ⟨[], by simp, by simp⟩
    simp only [State.crypterUnprotect, HalfConn.exec_bind_eq_ok] at h
    obtain ⟨⟨s1, r1⟩, ⟨⟨c, r2⟩, _, h1⟩, h2⟩ := h
    cases h1
    dsimp only at h2
    split at h2 <;> (cases h2; exact ⟨_, rfl, by simp⟩)

/-- Two records and a broken one in 66 bytes: three are opened. -/
example : (match unprotect Lib.toy alloc (fun _ => .none) rightS
      [.buf (record 0 [23]), .buf (record 1 [23] ++ record 5 [23])] with
    | .ok (s', res) => some (res.status, s'.evs.length)
    | _ => none) = some (.internal, 3) := by decide +kernel

end S2A.Frame
