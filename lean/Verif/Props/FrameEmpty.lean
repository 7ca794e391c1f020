import Verif.Lemmas.FrameEmpty
import Verif.Props.Frame
/-
C07, continued: what the two forms of `Unprotect` do with buffers of length 0.
-/
namespace S2A.Frame
open Spec (AllocOk NonEmptyBufs Bufs EmptyInHeader HeaderBegun Whole)
open Demo

set_option maxRecDepth 100000

/-- For buffers of any lengths, 0 included, in every reachable state and with any library
failures: if a call of `Unprotect` does not return, it is because of the undefined shift of the
handshake message reader, or because one of the buffers of length 0 is where a record header is
expected.  Nothing else is ever accessed outside a buffer. -/
theorem C07_stays_inside_but_empty_partial (L : Lib) (A : Allocator) (hA : AllocOk A)
    (o : Options) (s : State) (hr : Reach L A o s) (vs : List Iovec) (hv : Bufs vs) :
    (∀ f e, unprotect L A f s vs = .error e →
      e = .negativeShift ∨ e = .outOfBounds ∧ ∃ recs, EmptyInHeader vs recs) ∧
    (∀ f out e, out.WF → unprotectInto L f s vs out = .error e →
      e = .negativeShift ∨ e = .outOfBounds ∧ EmptyInHeader vs []) := by
  refine ⟨fun f e h => unprotect_inside hA hr.conn.1 hv h, fun f out e ho h => ?_⟩
  rcases unprotectInto_empty (L := L) (f := f) hr.conn.1 hv ho with ⟨h1, h2⟩ | h1 | ⟨r, h1⟩
  · rw [h] at h1; cases h1; exact Or.inr ⟨rfl, h2⟩
  · rw [h] at h1; cases h1; exact Or.inl rfl
  · rw [h] at h1; cases h1

/-- Exactly when a buffer of length 0 is read, if the crypto library does not fail: when it is
where a record header is expected, after records that `Unprotect` accepts. -/
theorem C07_empty_buffer_read_iff (L : Lib) (A : Allocator) (hA : AllocOk A)
    (o : Options) (s : State) (hr : Reach L A o s) (vs : List Iovec) (hv : Bufs vs)
    (f : Nat → Record.Fault) (hf : ∀ j, (f j).evp = .none) :
    unprotect L A f s vs = .error .outOfBounds ↔
      ∃ recs, EmptyInHeader vs recs ∧
        (recs = [] ∨ ∃ s' bufs, unprotect L A f s [.buf (recs.map fun r => r.1 ++ r.2).flatten] =
          .ok (s', ⟨.ok, bufs⟩)) := by
  constructor
  · intro h
    rcases unprotect_empty hA hf hr.conn.1 hv with ⟨_, h2⟩ | h1
    · exact h2
    · obtain ⟨su, hsu⟩ := hr.suite
      by_cases hn : flat vs = []
      · have hl : totalLen vs = 0 := by rw [hv.wf.totalLen_eq, hn]; rfl
        unfold unprotect at h
        simp only [hl] at h
        rw [if_pos (by rw [Record.recordOverhead_eq]; decide)] at h
        cases h
      · have hw := nonEmptyBufs_one hn
        rw [h1 [.buf (flat vs)] hw (by simp [Iovec.bytes])] at h
        rcases unprotect_call (A := A) (f := f) hA hsu hr.conn.1 hw with h2 | ⟨_, _, _, h2, _⟩
        · rw [h] at h2; cases h2
        · rw [h] at h2; cases h2
  · rintro ⟨recs, h1, h2⟩
    exact unprotect_blocked hA hf hr.conn.1 hv h1 h2

/-- The same for the form that writes into the caller's buffer, which looks at one record only,
and with any failures of the library. -/
theorem C07_empty_buffer_read_into_iff (L : Lib) (A : Allocator)
    (o : Options) (s : State) (hr : Reach L A o s) (vs : List Iovec) (hv : Bufs vs)
    (f : Record.Fault) (out : Iovec) (ho : out.WF) :
    unprotectInto L f s vs out = .error .outOfBounds ↔ EmptyInHeader vs [] := by
  constructor
  · intro h
    rcases unprotectInto_empty (L := L) (f := f) hr.conn.1 hv ho with ⟨_, h2⟩ | h1 | ⟨r, h1⟩
    · exact h2
    · rw [h] at h1; cases h1
    · rw [h] at h1; cases h1
  · exact fun h => unprotectInto_blocked hv h

/-- In all other cases the buffers of length 0 make no difference: the call does what it does
with any non-empty buffers that hold the same bytes. -/
theorem C07_empty_buffers_ignored (L : Lib) (A : Allocator) (hA : AllocOk A)
    (o : Options) (s : State) (hr : Reach L A o s) (vs ws : List Iovec) (hv : Bufs vs)
    (hw : NonEmptyBufs ws) (hflat : flat ws = flat vs) :
    (∀ f, (∀ j, (f j).evp = .none) → unprotect L A f s vs ≠ .error .outOfBounds →
      unprotect L A f s vs = unprotect L A f s ws) ∧
    (∀ f ob, f.evp = .none → numberBytesToUnprotect s (flat vs).length ≤ ob.length →
      unprotectInto L f s vs (.buf ob) ≠ .error .outOfBounds →
      unprotectInto L f s vs (.buf ob) = unprotectInto L f s ws (.buf ob)) := by
  refine ⟨fun f hf hn => ?_, fun f ob hf hob hn =>
    unprotectInto_filter hr.conn.1 hv hw hflat hf hob hn⟩
  rcases unprotect_empty hA hf hr.conn.1 hv with ⟨h1, _⟩ | h1
  · exact absurd h1 hn
  · exact h1 ws hw hflat

/-- Empty buffers inside a payload and behind the last record do no harm. -/
example :
    let r := record 0 [1, 2, 23]
    Bufs [.buf (r.take 5), .buf [], .buf (r.drop 5), .buf []] ∧
    status (unprotect Lib.toy alloc (fun _ => .none) rightS
      [.buf (r.take 5), .buf [], .buf (r.drop 5), .buf []]) (fun r => (r.status, r.bytes.map (·.2))) =
      some (.ok, [[1, 2]]) := by
  refine ⟨?_, by decide +kernel⟩
  intro v hv
  simp only [List.mem_cons, List.not_mem_nil, or_false] at hv
  rcases hv with rfl | rfl | rfl | rfl <;> exact ⟨_, rfl⟩

/-- An empty buffer after the first byte of the second header: the hypotheses of
`C07_empty_buffer_read_iff` hold and the buffer is read. -/
example :
    unprotect Lib.toy alloc (fun _ => .none) rightS
      [.buf (record 0 [1, 2, 23] ++ [23]), .buf [], .buf ((record 1 [3, 4, 23]).drop 1)] =
      .error .outOfBounds := by
  refine (C07_empty_buffer_read_iff Lib.toy alloc alloc_ok rightO rightS right_reach _ ?_ _
    (fun _ => rfl)).2 ⟨[((record 0 [1, 2, 23]).take 5, (record 0 [1, 2, 23]).drop 5)], ⟨?_,
      [.buf (record 0 [1, 2, 23] ++ [23])], [23], [.buf ((record 1 [3, 4, 23]).drop 1)], rfl, ?_, ?_, ?_⟩,
      Or.inr ?_⟩
  · intro v hv
    simp only [List.mem_cons, List.not_mem_nil, or_false] at hv
    rcases hv with rfl | rfl | rfl <;> exact ⟨_, rfl⟩
  · intro r hr
    simp only [List.mem_singleton] at hr
    subst hr
    exact ⟨⟨by decide +kernel, by decide +kernel⟩, by decide +kernel⟩
  · decide +kernel
  · exact ⟨by decide, by decide⟩
  · decide +kernel
  · simp only [List.map_cons, List.map_nil, List.flatten_cons, List.flatten_nil,
      List.take_append_drop, List.append_nil]
    exact ⟨_, _, rfl⟩

end S2A.Frame
