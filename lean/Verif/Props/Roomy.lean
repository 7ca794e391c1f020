import Verif.Lemmas.Roomy
import Verif.Props.Frame
/-
C93: allocators that give more than they are asked for (as those that round up do).
-/
set_option maxRecDepth 100000
namespace S2A.Frame
open Record (inDir outDir)
open Spec (Machine Roomy)

/-- C93 in full would say: with an allocator that gives at least what it is asked for, every call
answers as the reference machine of C90 does.  Proved: so it is for all calls, but for the
`Protect` that allocates.  That one succeeds or fails as the machine says and hands out the
machine's records, but followed by what was in the rest of the buffer. -/
theorem C93_roomy_allocator_partial {L : Lib} {A : Allocator} {o : Options} {su : Spec.Suite}
    {s : State} {ops : List Op} (hA : Roomy A) (h : Created L o s)
    (hs : Spec.suite o.crypter.ciphersuite = some su) (hf : ∀ op ∈ ops, op.Fine) :
    match (Machine.start (outDir o.crypter su) (inDir o.crypter su)).frameRun L (ops.map Op.plain) with
    | none => run L A s ops = .error .negativeShift
    | some (m, answers) => ∃ s' evs, run L A s ops = .ok (s', evs) ∧
        SeesAllRoomy A ops evs answers ∧ s'.conn.sent.map (·.tickets) = m.sent := by
  obtain ⟨_, _, _, hc, _⟩ := created_inv h
  have := acts_runRoomy (ops := ops) hA (Record.Acts.created (s := su) hc hs) hf
  have e1 : outDir o.args su = outDir o.crypter su := rfl
  have e2 : inDir o.args su = inDir o.crypter su := rfl
  rw [e1, e2] at this
  generalize (Machine.start (outDir o.crypter su) (inDir o.crypter su)).frameRun L (ops.map Op.plain) = x
    at this
  cases x with
  | none => exact this
  | some y =>
    obtain ⟨m, as⟩ := y
    obtain ⟨c', es, e1, e2, e3⟩ := this
    exact ⟨c', es, e1, e2, e3.sent⟩

/-- Negation of C93, for every allocator and every connection, and whether or not the library
fails: if the buffer for a successful `Protect` is larger than was asked for, then what is handed
out is longer than `NumberBytesToProtect` and ends with whatever was in the buffer. -/
theorem C93_rest_of_buffer_is_handed_out (L : Lib) (A : Allocator) (o : Options) (s s' : State)
    (hr : Reach L A o s) (f : Nat → EvpFault) (vs : List Iovec) (hw : AllWF vs) (d : Bytes)
    (r : Result) (hA : A s.next (numberBytesToProtect s (totalLen vs)) = .buf d)
    (hd : numberBytesToProtect s (totalLen vs) < d.length)
    (h : protect L A f s vs = .ok (s', r)) (hok : r.status = .ok) :
    ∃ w, r.bytes = [(.heap s.next, w ++ d.drop (numberBytesToProtect s (totalLen vs)))] ∧
      w.length = numberBytesToProtect s (totalLen vs) ∧
      d.drop (numberBytesToProtect s (totalLen vs)) ≠ [] := by
  have hne : d.drop (numberBytesToProtect s (totalLen vs)) ≠ [] := by
    intro h0
    have := congrArg List.length h0
    simp only [List.length_drop, List.length_nil] at this
    omega
  obtain ⟨su, hsu⟩ := hr.suite
  unfold protect at h
  simp only [State.alloc, hA] at h
  obtain ⟨s1, st, ob', h1, h2, _, _, _, h3, _⟩ :=
    protectInto_call (f := f) (vs := vs) (id := .heap s.next) (ob := d) (s := { s with next := s.next + 1, mem := s.mem ++ [.alloc (.heap s.next) (numberBytesToProtect s (totalLen vs))] }) hr.conn.1
  rw [h1, exec_bind_ok] at h
  by_cases hst : st ≠ .ok
  · simp only [if_pos hst] at h
    cases h
    exact absurd hok hst
  · simp only [if_neg hst] at h
    cases h
    have hst : st = .ok := Classical.not_not.1 hst
    obtain ⟨h4, h5⟩ := h3 hst
    rcases hr.conn.1.outAt hsu with h | h
    · exfalso
      have := protectInto_alive (s := { s with next := s.next + 1, mem := s.mem ++ [.alloc (.heap s.next) (numberBytesToProtect s (totalLen vs))] }) hr.conn.1 h1 hst
      rw [this] at h; cases h
    · have h6 := (h5 _ h).2.2 hw
      have hl := messageRecords_length L (Record.outPos L o.args su s.evs) (flat vs)
      rw [← hw.totalLen_eq] at hl
      rw [numberBytesToProtect_eq] at hne ⊢
      refine ⟨_, ?_, hl, hne⟩
      show [_] = _
      rw [h6]
      rfl

namespace Demo

/-- Gives a multiple of 64 bytes, with what was left in them. -/
def roundUp : Allocator := fun _ n => .buf (List.replicate ((n + 63) / 64 * 64) 170)

theorem roundUp_roomy : Roomy roundUp := fun _ n => ⟨_, rfl, by rw [List.length_replicate]; omega⟩

end Demo
open Demo

/-- Witness for `C93_roomy_allocator_partial`: calls and an allocator, and what they give. -/
example : Created Lib.toy rightO rightS ∧ Roomy roundUp ∧
    (∀ op ∈ ([.protect (fun _ => .none) [.buf [1, 2], .null 0],
      .unprotect (fun _ => .none) [.buf (record 0 [7, 8, 23] ++ record 1 [9, 23])]] : List Op), op.Fine) ∧
    (match run Lib.toy roundUp rightS [.protect (fun _ => .none) [.buf [1, 2], .null 0],
        .unprotect (fun _ => .none) [.buf (record 0 [7, 8, 23] ++ record 1 [9, 23])]] with
      | .ok (_, [.result r, .result r']) =>
        some (r.bytes.map (·.2.length), r'.status, r'.bytes.map (·.2))
      | _ => none) = some ([64], .ok, [[7, 8], [9]]) := by
  refine ⟨right_created, roundUp_roomy, ?_, by decide +kernel⟩
  intro op hop
  rcases List.mem_cons.1 hop with rfl | hop
  · exact ⟨fun _ => rfl, by intro v hv; simp at hv; rcases hv with rfl | rfl <;> simp [Iovec.WF]⟩
  · cases List.mem_singleton.1 hop
    exact ⟨fun _ => rfl, by intro v hv; cases List.mem_singleton.1 hv; exact ⟨_, rfl, by decide⟩⟩

/-- Negation of C93: a message of two bytes is protected with an allocator that rounds up to
multiples of 64, and the call succeeds.  It hands out 40 bytes that were in the allocated memory,
and the peer refuses to read what it gets: the message is lost. -/
theorem C93_peer_refuses : ∃ s' id w,
    protect Lib.toy roundUp (fun _ => .none) leftS [.buf [1, 2]] = .ok (s', ⟨.ok, [(id, w)]⟩) ∧
    w.length = 64 ∧ numberBytesToProtect leftS 2 = 24 ∧ w.drop 24 = List.replicate 40 170 ∧
    status (unprotect Lib.toy alloc (fun _ => .none) rightS [.buf w])
      (fun r => (r.status, r.bytes)) = some (.failedPrecondition, []) :=
  ⟨_, _, _, rfl, by decide +kernel, by decide +kernel, by decide +kernel, by decide +kernel⟩

/-- Witness for `C93_rest_of_buffer_is_handed_out`. -/
example : Reach Lib.toy roundUp leftO leftS ∧
    numberBytesToProtect leftS (totalLen [.buf [1, 2]]) < ((roundUp 0 24).bytes).length ∧
    status (protect Lib.toy roundUp (fun _ => .none) leftS [.buf [1, 2]]) (·.status) = some .ok :=
  ⟨⟨_, [], [], left_created, rfl⟩, by decide +kernel, by decide +kernel⟩

end S2A.Frame
