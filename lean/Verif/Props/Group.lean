import Verif.Lemmas.FrameGroup
import Verif.Props.Frame
/-
C80: how records are grouped into calls of `Unprotect` does not matter; and what the calls do
with bytes that are not records (general forms of the counterexamples to C08, C09 and C11).
-/
namespace S2A.Frame
open Spec (AllocOk NonEmptyBufs Batch Whole)
open HalfConn (exec_bind_eq_ok)
open Demo

set_option maxRecDepth 100000

/-! ## C80: one call or several -/

/-- `vs` holds the records in `vs1` and then the bytes in `vs2`.  If `Unprotect` refuses the
records, it refuses `vs` in the same way.  If it accepts them, and then a further call accepts
`vs2`, one call with `vs` accepts it, with the same buffers and the same state; and if the
further call fails, the one call fails with the same status and differs in its state only in
what was destroyed: it destroys the buffers of the records in `vs1` too, unless the reason is
broken framing. -/
theorem C80_one_call_or_two (L : Lib) (A : Allocator) (hA : AllocOk A) (o : Options) (s : State)
    (hr : Reach L A o s) (f : Nat → Record.Fault) (hf : ∀ j, (f j).evp = .none)
    (recs : List (Bytes × Bytes)) (vs vs1 vs2 : List Iovec) (hv : NonEmptyBufs vs)
    (hv1 : NonEmptyBufs vs1) (hv2 : NonEmptyBufs vs2) (hb : Batch recs (flat vs1))
    (hflat : flat vs = flat vs1 ++ flat vs2) (hl : 22 ≤ (flat vs2).length)
    (s1 : State) (r1 : Result) (h1 : unprotect L A f s vs1 = .ok (s1, r1)) :
    (r1.status ≠ .ok → unprotect L A f s vs = .ok (s1, r1)) ∧
    (r1.status = .ok → ∀ s2 r2,
      unprotect L A (fun j => f (recs.length + j)) s1 vs2 = .ok (s2, r2) →
      (r2.status = .ok → unprotect L A f s vs = .ok (s2, ⟨.ok, r1.bytes ++ r2.bytes⟩)) ∧
      (r2.status ≠ .ok → ∃ mem, unprotect L A f s vs = .ok ({ s2 with mem := mem }, r2) ∧
        (r2.status = .failedPrecondition ∧ mem = s2.mem ∨
          mem.Perm (s2.mem ++ r1.bytes.map fun b => .destroy b.1 b.2.length)))) := by
  have he := unprotect_append hA hf hb.some hb.large (flat vs2) hr.conn.1 hv hv1
    (by rw [hflat, hb.bytes]) hb.bytes
  rw [h1] at he
  simp only [exec_bind_ok, andThen] at he
  refine ⟨fun hn => ?_, fun hk s2 r2 h2 => ?_⟩
  · rw [if_neg hn] at he; exact he
  rw [if_pos hk] at he
  have hr1 : Reach L A o s1 := hr.step (op := .unprotect f vs1) (e := .result r1) (by
    simp [step, h1])
  have h22 : s1.conn.recordOverhead = 22 := Record.recordOverhead_eq _
  unfold unprotect at h2
  simp only at h2
  rw [hv2.wf.totalLen_eq, if_neg (by omega)] at h2
  rw [unprotectLoop_flat hA (fun j => hf _) _ _ s1 vs2 (one (flat vs2)) 0 0 _ _ hr1.conn.1
    (cursor_start hv2) (cursor_start (one_bufs _)) (by simp [ahead, flat_one])
    (by simp [ahead])] at h2
  have hh := unprotectLoop_holding L A (fun j => f (recs.length + j)) ((flat vs2).length + 1) 0 s1
    (one (flat vs2)) 0 (flat vs2).length r1.bytes []
  rw [List.append_nil, ← he, h2] at hh
  rcases hh with ⟨e, h, _⟩ | ⟨s', bufs, h, h'⟩ | ⟨s', st, m, hst, h, h', hm⟩
  · cases h
  · cases h
    exact ⟨fun _ => h', fun hn => absurd rfl hn⟩
  · cases h
    exact ⟨fun hn => absurd hn hst, fun _ => ⟨m, h', hm⟩⟩

/-- Undefined behaviour, too, occurs in the one call exactly when it occurs in one of the two. -/
theorem C80_undefined_behaviour (L : Lib) (A : Allocator) (hA : AllocOk A) (o : Options)
    (s : State) (hr : Reach L A o s) (f : Nat → Record.Fault) (hf : ∀ j, (f j).evp = .none)
    (recs : List (Bytes × Bytes)) (vs vs1 vs2 : List Iovec) (hv : NonEmptyBufs vs)
    (hv1 : NonEmptyBufs vs1) (hv2 : NonEmptyBufs vs2) (hb : Batch recs (flat vs1))
    (hflat : flat vs = flat vs1 ++ flat vs2) (hl : 22 ≤ (flat vs2).length) (e : UB) :
    unprotect L A f s vs = .error e ↔
      unprotect L A f s vs1 = .error e ∨
      ∃ s1 bufs, unprotect L A f s vs1 = .ok (s1, ⟨.ok, bufs⟩) ∧
        unprotect L A (fun j => f (recs.length + j)) s1 vs2 = .error e := by
  have hc := C80_one_call_or_two L A hA o s hr f hf recs vs vs1 vs2 hv hv1 hv2 hb hflat hl
  have he := unprotect_append hA hf hb.some hb.large (flat vs2) hr.conn.1 hv hv1
    (by rw [hflat, hb.bytes]) hb.bytes
  cases h1 : unprotect L A f s vs1 with
  | error e1 =>
    rw [h1] at he
    rw [he]
    constructor
    · intro h; cases h; exact Or.inl rfl
    · rintro (h | ⟨_, _, h, _⟩)
      · cases h; rfl
      · cases h
  | ok x =>
    obtain ⟨s1, r1⟩ := x
    obtain ⟨c1, c2⟩ := hc s1 r1 h1
    rw [h1] at he
    simp only [exec_bind_ok, andThen] at he
    by_cases hk : r1.status = .ok
    case neg =>
      rw [c1 hk]
      constructor
      · intro h; cases h
      · rintro (h | ⟨_, _, h, _⟩)
        · cases h
        · cases h; exact absurd rfl hk
    cases h2 : unprotect L A (fun j => f (recs.length + j)) s1 vs2 with
    | ok y =>
      obtain ⟨s2, r2⟩ := y
      obtain ⟨d1, d2⟩ := c2 hk s2 r2 h2
      have hn : ∀ e', unprotect L A f s vs ≠ .error e' := by
        intro e' h
        by_cases hk2 : r2.status = .ok
        · rw [d1 hk2] at h; cases h
        · obtain ⟨m, h', _⟩ := d2 hk2
          rw [h'] at h; cases h
      constructor
      · intro h; exact absurd h (hn e)
      · rintro (h | ⟨s1', bufs, h, h'⟩)
        · cases h
        · cases h; rw [h2] at h'; cases h'
    | error e2 =>
      rw [if_pos hk] at he
      have hr1 : Reach L A o s1 := hr.step (op := .unprotect f vs1) (e := .result r1) (by
        simp [step, h1])
      have h22 : s1.conn.recordOverhead = 22 := Record.recordOverhead_eq _
      have h2' := h2
      unfold unprotect at h2
      simp only at h2
      rw [hv2.wf.totalLen_eq, if_neg (by omega)] at h2
      rw [unprotectLoop_flat hA (fun j => hf _) _ _ s1 vs2 (one (flat vs2)) 0 0 _ _ hr1.conn.1
        (cursor_start hv2) (cursor_start (one_bufs _)) (by simp [ahead, flat_one])
        (by simp [ahead])] at h2
      have hh := unprotectLoop_holding L A (fun j => f (recs.length + j))
        ((flat vs2).length + 1) 0 s1 (one (flat vs2)) 0 (flat vs2).length r1.bytes []
      rw [List.append_nil, ← he, h2] at hh
      rcases hh with ⟨e', h, h'⟩ | ⟨s', bufs, h, h'⟩ | ⟨s', st, m, hst, h, h', hm⟩
      · cases h
        rw [h']
        constructor
        · intro h; cases h
          refine Or.inr ⟨s1, r1.bytes, ?_, h2'⟩
          obtain ⟨st, bufs⟩ := r1
          simp only at hk
          rw [hk]
        · rintro (h | ⟨s1', bufs, h, h''⟩)
          · cases h
          · cases h; rw [h2'] at h''; cases h''; rfl
      · cases h
      · cases h

/-- Witness: two records in one call and in two. -/
example : ∃ s1 s2 b1 b2,
    unprotect Lib.toy alloc (fun _ => .none) rightS [.buf (record 0 [1, 2, 23])] =
      .ok (s1, ⟨.ok, b1⟩) ∧
    unprotect Lib.toy alloc (fun _ => .none) s1 [.buf (record 1 [3, 23])] = .ok (s2, ⟨.ok, b2⟩) ∧
    unprotect Lib.toy alloc (fun _ => .none) rightS
      [.buf ((record 0 [1, 2, 23]).take 7), .buf ((record 0 [1, 2, 23]).drop 7 ++ record 1 [3, 23])] =
      .ok (s2, ⟨.ok, b1 ++ b2⟩) ∧ b1.map (·.2) = [[1, 2]] ∧ b2.map (·.2) = [[3]] :=
  ⟨_, _, _, _, rfl, rfl, by decide +kernel, by decide +kernel, by decide +kernel⟩

/-- Witness: a record and a forged one. -/
example : status (unprotect Lib.toy alloc (fun _ => .none) rightS
      [.buf (record 0 [1, 2, 23] ++ record 5 [3, 23])]) (fun r => (r.status, r.bytes)) =
    some (.internal, []) := by decide +kernel

/-- These records are a batch. -/
example : Batch [((record 0 [1, 2, 23]).take 5, (record 0 [1, 2, 23]).drop 5)]
    (record 0 [1, 2, 23]) :=
  ⟨by decide, by decide +kernel, fun r hr => by
    rw [List.mem_singleton.1 hr]; exact ⟨by decide +kernel, by decide +kernel⟩, fun r hr => by
    rw [List.mem_singleton.1 hr]; decide +kernel⟩

/-! ## C08, C09, C11: bytes that are not records -/

/-- After records, up to 21 further bytes make no difference, whatever they are: the call does
exactly what it does without them. -/
theorem C08_short_tail_dropped (L : Lib) (A : Allocator) (hA : AllocOk A) (o : Options)
    (s : State) (hr : Reach L A o s) (f : Nat → Record.Fault) (hf : ∀ j, (f j).evp = .none)
    (recs : List (Bytes × Bytes)) (vs vs1 : List Iovec) (tail : Bytes) (hv : NonEmptyBufs vs)
    (hv1 : NonEmptyBufs vs1) (hb : Batch recs (flat vs1)) (hflat : flat vs = flat vs1 ++ tail)
    (hl : tail.length < 22) :
    unprotect L A f s vs = unprotect L A f s vs1 := by
  rw [unprotect_append hA hf hb.some hb.large tail hr.conn.1 hv hv1 (by rw [hflat, hb.bytes])
    hb.bytes]
  cases unprotect L A f s vs1 with
  | error e => rfl
  | ok x =>
    obtain ⟨s1, r1⟩ := x
    simp only [exec_bind_ok, andThen]
    split
    · next hk =>
      have h22 : s1.conn.recordOverhead = 22 := Record.recordOverhead_eq _
      unfold unprotectLoop
      rw [if_neg (by omega)]
      obtain ⟨st, bufs⟩ := r1
      simp only at hk
      rw [hk]
      rfl
    · rfl

/-- After records that are accepted, 22 or more bytes that do not begin with a complete record:
the call fails, the connection is in the state after the records, and the buffers with their
plaintexts are neither returned nor destroyed. -/
theorem C11_broken_framing_loses_all (L : Lib) (A : Allocator) (hA : AllocOk A) (o : Options)
    (s : State) (hr : Reach L A o s) (f : Nat → Record.Fault) (hf : ∀ j, (f j).evp = .none)
    (recs : List (Bytes × Bytes)) (vs vs1 : List Iovec) (tail : Bytes) (hv : NonEmptyBufs vs)
    (hv1 : NonEmptyBufs vs1) (hb : Batch recs (flat vs1)) (hflat : flat vs = flat vs1 ++ tail)
    (hl : 22 ≤ tail.length)
    (hbad : ¬ ∃ hd payload rest, tail = hd ++ payload ++ rest ∧ Whole hd payload)
    (s1 : State) (bufs : List (BufId × Bytes))
    (h1 : unprotect L A f s vs1 = .ok (s1, ⟨.ok, bufs⟩)) :
    unprotect L A f s vs = .ok (s1, ⟨.failedPrecondition, []⟩) ∧
    ∃ new, s1.mem = s.mem ++ new ∧ ∀ id, new.countP (Spec.allocates id) = (bufs.map (·.1)).count id ∧
      new.countP (Spec.destroys id) = 0 := by
  obtain ⟨su, hsu⟩ := hr.suite
  constructor
  · rw [unprotect_append hA hf hb.some hb.large tail hr.conn.1 hv hv1 (by rw [hflat, hb.bytes])
      hb.bytes, h1]
    simp only [exec_bind_ok, andThen, if_true]
    have h22 : s1.conn.recordOverhead = 22 := Record.recordOverhead_eq _
    refine unprotectLoop_stop _ _ _ _ _ _ _ _ _ _ (cursor_start (one_bufs _)) (by omega) ?_
    simp only [ahead, List.drop_zero, flat_one]
    cases hfr : Spec.firstRecord tail with
    | none => rfl
    | some x =>
      obtain ⟨hd, payload, rest⟩ := x
      exact absurd ⟨hd, payload, rest, firstRecord_some hfr⟩ hbad
  · rcases unprotect_call (A := A) (f := f) hA hsu hr.conn.1 hv1 with
      h | ⟨s', res, new, h, _, hm, _, hcase⟩
    · rw [h1] at h; cases h
    rw [h1] at h
    cases h
    refine ⟨new, hm, fun id => ?_⟩
    rcases hcase with ⟨_, _, h3, _⟩ | ⟨h3, _⟩ | ⟨h3, _⟩
    · exact ⟨(h3 id).2.symm, (h3 id).1⟩
    · exact absurd rfl h3
    · cases h3

/-- The single-record form looks at the first record only: whatever follows it, the call does
what it does with that record alone (if the buffer of the caller has room for all). -/
theorem C09_rest_ignored (L : Lib) (A : Allocator) (o : Options) (s : State)
    (hr : Reach L A o s) (f : Record.Fault) (hf : f.evp = .none) (hd payload rest ob : Bytes)
    (hw : Whole hd payload) (hl : 22 ≤ hd.length + payload.length) (vs vs1 : List Iovec)
    (hv : NonEmptyBufs vs) (hv1 : NonEmptyBufs vs1) (h1 : flat vs1 = hd ++ payload)
    (hflat : flat vs = hd ++ payload ++ rest)
    (hob : numberBytesToUnprotect s (flat vs).length ≤ ob.length) :
    unprotectInto L f s vs (.buf ob) = unprotectInto L f s vs1 (.buf ob) := by
  have h22 : s.conn.recordOverhead = 22 := Record.recordOverhead_eq _
  have l1 : 22 ≤ (flat vs1).length := by rw [h1, List.length_append]; exact hl
  have l2 : (flat vs1).length ≤ (flat vs).length := by
    rw [h1, hflat]; simp
  have hob1 : numberBytesToUnprotect s (flat vs1).length ≤ ob.length := by
    unfold numberBytesToUnprotect at hob ⊢
    rw [if_neg (by omega)] at hob ⊢
    omega
  rw [unprotectInto_flat hr.conn.1 hv hf hob, unprotectInto_flat hr.conn.1 hv1 hf hob1]
  unfold openInto
  rw [if_neg (by omega), if_neg (by omega), hflat, firstRecord_whole hw rest, h1,
    show hd ++ payload = hd ++ payload ++ [] by simp, firstRecord_whole hw []]

end S2A.Frame
