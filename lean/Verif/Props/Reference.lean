import Verif.Lemmas.ReferenceHist
import Verif.Props.Frame
/-
C90: everything that the users of a crypter and of a frame protector see is what a reference
machine on byte strings says, call for call, in every history.
-/
set_option maxRecDepth 100000

namespace S2A.Record
open Spec (Machine)

/-- **C90.**  For every history of calls on a crypter, in which the library does not fail and with
buffers that are there: if the reference machine (`Spec/Reference.lean`) says that the history is
undefined behaviour, it is; otherwise the calls return exactly the codes and bytes that the
machine returns, and hand on exactly the tickets that the machine hands on. -/
theorem C90_crypter {L : Lib} {a : CreateArgs} {s : Spec.Suite} {c : Conn} {ops : List Op}
    (h : Created L a c) (hs : Spec.suite a.ciphersuite = some s) (hf : ∀ op ∈ ops, op.Fine) :
    match (Machine.start (outDir a s) (inDir a s)).run L (ops.map Op.plain) with
    | none => run L c ops = .error .negativeShift
    | some (m, answers) => ∃ c' evs, run L c ops = .ok (c', evs) ∧ evs.map Event.plain = answers ∧
        c'.sent.map (·.tickets) = m.sent := by
  have := acts_run (ops := ops) (Acts.created h hs) hf
  generalize (Machine.start (outDir a s) (inDir a s)).run L (ops.map Op.plain) = o at this
  cases o with
  | none => exact this
  | some y =>
    obtain ⟨m, as⟩ := y
    obtain ⟨c', es, e1, e2, e3⟩ := this
    exact ⟨c', es, e1, e2, e3.sent⟩

/-- A crypter that could be created has a suite, so the last theorem applies to each. -/
theorem C90_crypter_suite {L : Lib} {a : CreateArgs} {c : Conn} (h : Created L a c) :
    ∃ s, Spec.suite a.ciphersuite = some s := by
  have : Reach L a c [] := ⟨c, [], h, rfl⟩
  exact this.suite

/-- A history is undefined behaviour exactly if the machine says so, and nothing else can go
wrong. -/
theorem C90_crypter_undefined {L : Lib} {a : CreateArgs} {s : Spec.Suite} {c : Conn} {ops : List Op}
    (h : Created L a c) (hs : Spec.suite a.ciphersuite = some s) (hf : ∀ op ∈ ops, op.Fine)
    (u : UB) : run L c ops = .error u ↔
      u = .negativeShift ∧ (Machine.start (outDir a s) (inDir a s)).run L (ops.map Op.plain) = none := by
  have := C90_crypter h hs hf
  generalize (Machine.start (outDir a s) (inDir a s)).run L (ops.map Op.plain) = o at this
  cases o with
  | none =>
    simp only at this
    rw [this]
    simp [eq_comm]
  | some y =>
    obtain ⟨m, as⟩ := y
    obtain ⟨c', es, e1, _⟩ := this
    rw [e1]
    simp

/-- Only the bytes matter: two crypters that were created with the same cipher suite, secrets and
sequence numbers, whatever their connection ids, addresses and identities, answer two histories
with the same bytes, however these are cut into buffers and whatever the buffers for the results
contain, in the same way. -/
theorem C90_crypter_bytes {L : Lib} {a b : CreateArgs} {c d : Conn} {ops ops' : List Op}
    (hc : Created L a c) (hd : Created L b d)
    (hsuite : a.ciphersuite = b.ciphersuite) (hin : a.inSecret = b.inSecret)
    (hout : a.outSecret = b.outSecret) (hiseq : a.inSequence = b.inSequence)
    (hoseq : a.outSequence = b.outSequence)
    (hf : ∀ op ∈ ops, op.Fine) (hf' : ∀ op ∈ ops', op.Fine)
    (heq : ops.map Op.plain = ops'.map Op.plain) {c' evs} (hr : run L c ops = .ok (c', evs)) :
    ∃ d' evs', run L d ops' = .ok (d', evs') ∧ evs'.map Event.plain = evs.map Event.plain ∧
      d'.sent.map (·.tickets) = c'.sent.map (·.tickets) := by
  obtain ⟨s, hs⟩ := C90_crypter_suite hc
  have h1 := C90_crypter hc hs hf
  have h2 := C90_crypter hd (hsuite ▸ hs) hf'
  have e1 : outDir b s = outDir a s := by simp [outDir, hout, hoseq]
  have e2 : inDir b s = inDir a s := by simp [inDir, hin, hiseq]
  rw [e1, e2, ← heq] at h2
  generalize (Machine.start (outDir a s) (inDir a s)).run L (ops.map Op.plain) = o at h1 h2
  cases o with
  | none =>
    simp only at h1
    rw [hr] at h1
    cases h1
  | some y =>
    obtain ⟨m, as⟩ := y
    obtain ⟨c1, es, g1, g2, g3⟩ := h1
    obtain ⟨d1, es', g4, g5, g6⟩ := h2
    rw [hr] at g1
    cases g1
    exact ⟨d1, es', g4, g5.trans g2.symm, g6.trans g3.symm⟩

section Witness
open Demo

/-- A history for the witness: application data, the first part of a ticket, application data in
between, the rest of the ticket, application data, a record that the receiver makes, and a close
notification. -/
def demoOps : List Op :=
  recvAll (pos 0) [[7, 8, 23], [4, 0, 0, 22], [1, 23], [1, 5, 22], [2, 23]] ++
  [.protect .none .applicationData [.buf [1], .null 0, .buf [2]] (.buf (List.replicate 30 9)),
   .updateOutboundKey .none] ++ recvAll (pos 5) [[1, 0, 21], [9, 23]]

/-- Witness for the theorems above: the hypotheses hold, and the machine says something. -/
example : Created Lib.toy rightArgs right ∧ (∀ op ∈ demoOps, op.Fine) ∧
    ((Machine.start (outDir rightArgs suite) (inDir rightArgs suite)).run Lib.toy
      (demoOps.map Op.plain)).map (fun x => (x.2.map (·.1), x.1.sent, x.1.closed)) =
    some ([.ok, .ok, .invalidRecord, .ok, .ok, .ok, .ok, .alertCloseNotify, .alertCloseNotify],
      [[[4, 0, 0, 1, 5]]], true) := by
  refine ⟨right_created, ?_, by decide +kernel⟩
  intro op h
  simp only [demoOps, recvAll, recv, List.mem_append, List.mem_cons, List.not_mem_nil, or_false] at h
  rcases h with (((rfl | rfl | rfl | rfl | rfl) | (rfl | rfl)) | (rfl | rfl)) <;>
    simp [Op.Fine, AllWF, Iovec.WF]

/-- And one that is undefined behaviour: a ticket with an empty body, and then another message. -/
example : (Machine.start (outDir rightArgs suite) (inDir rightArgs suite)).run Lib.toy
    ((recvAll (pos 0) [[4, 0, 0, 0, 22], [4, 0, 0, 1, 9, 22]]).map Op.plain) = none := by
  decide +kernel

end Witness

end S2A.Record

namespace S2A.Frame
open Record (inDir outDir)
open Spec (Machine AllocOk)

/-- **C90.**  The same for the frame protector: in every history of calls of the four methods, each
call returns exactly the status and the bytes that the reference machine returns. -/
theorem C90_frame {L : Lib} {A : Allocator} {o : Options} {su : Spec.Suite} {s : State}
    {ops : List Op} (hA : AllocOk A) (h : Created L o s)
    (hs : Spec.suite o.crypter.ciphersuite = some su) (hf : ∀ op ∈ ops, op.Fine) :
    match (Machine.start (outDir o.crypter su) (inDir o.crypter su)).frameRun L (ops.map Op.plain) with
    | none => run L A s ops = .error .negativeShift
    | some (m, answers) => ∃ s' evs, run L A s ops = .ok (s', evs) ∧ SeesAll ops evs answers ∧
        s'.conn.sent.map (·.tickets) = m.sent := by
  obtain ⟨_, _, _, hc, _⟩ := created_inv h
  have := acts_frameRun (ops := ops) hA (Record.Acts.created (s := su) hc hs) hf
  have e1 : outDir o.args su = outDir o.crypter su := rfl
  have e2 : inDir o.args su = inDir o.crypter su := rfl
  rw [e1, e2] at this
  generalize (Machine.start (outDir o.crypter su) (inDir o.crypter su)).frameRun L (ops.map Op.plain) = x
    at this
  cases x with
  | none => exact this
  | some y =>
    obtain ⟨m, as⟩ := y
    obtain ⟨c', es, e1, e2, e3⟩ := this
    exact ⟨c', es, e1, e2, e3.sent⟩

section Witness
open Demo

/-- A history for the witness. -/
def demoOps : List Op :=
  [.unprotect (fun _ => .none) [.buf ((record 0 [7, 8, 23]).take 3), .buf ((record 0 [7, 8, 23]).drop 3),
     .buf (record 1 [4, 0, 0, 22])],
   .protect (fun _ => .none) [.buf [1], .null 0],
   .protectInto (fun _ => .none) [.buf [1, 2]] (.buf (List.replicate 30 9)),
   .unprotectInto .none [.buf (record 2 [1, 5, 22])] (.buf (List.replicate 20 9)),
   .unprotect (fun _ => .none) [.buf (record 3 [6, 23] ++ record 4 [1, 0, 21])]]

/-- Witness for `C90_frame`. -/
example : Created Lib.toy rightO rightS ∧ AllocOk alloc ∧ (∀ op ∈ demoOps, op.Fine) ∧
    ((Machine.start (outDir rightO.crypter Record.Demo.suite)
      (inDir rightO.crypter Record.Demo.suite)).frameRun Lib.toy
      (demoOps.map Op.plain)).map (fun x => (x.2.map fun a => (a.1, a.2.map List.length), x.1.sent)) =
    some ([(.ok, [2, 0]), (.ok, [23]), (.ok, [24]), (.ok, [0]), (.internal, [])],
      [[[4, 0, 0, 1, 5]]]) := by
  refine ⟨right_created, alloc_ok, ?_, by decide +kernel⟩
  intro op h
  simp only [demoOps, List.mem_cons, List.not_mem_nil, or_false] at h
  rcases h with rfl | rfl | rfl | rfl | rfl <;>
    simp [Op.Fine, AllWF, Iovec.WF, Spec.NonEmptyBufs] <;> decide +kernel

end Witness

end S2A.Frame
