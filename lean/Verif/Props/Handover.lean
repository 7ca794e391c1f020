import Verif.Lemmas.Handover
import Verif.Lemmas.Threads
import Verif.Props.Reference
/-
C94: what a connection was doing before is in its two secrets and two counters, and in nothing else.
-/
set_option maxRecDepth 100000
namespace S2A.Frame
open Record (inDir outDir)
open Spec (Machine AllocOk)

/-- **C94.**  A connection can be handed over.  One frame protector has served a history of calls,
after which no handshake message is half read, no ticket has come, and nobody has closed the
connection.  Another is created with the secrets and the sequence numbers that the first has come
to.  Then in every history of calls from there on both answer the same: each call returns, from
both, the status and the bytes that the reference machine returns (or both histories end in the
undefined behaviour of C13). -/
theorem C94_handover {L : Lib} {A A2 : Allocator} {o o2 : Options} {su : Spec.Suite} {s s2 : State}
    {ops ops2 : List Op} {m : Machine} {answers : List Spec.FrameAnswer}
    (hA : AllocOk A) (hA2 : AllocOk A2)
    (h : Created L o s) (hs : Spec.suite o.crypter.ciphersuite = some su)
    (hf : ∀ op ∈ ops, op.Fine)
    (hm : (Machine.start (outDir o.crypter su) (inDir o.crypter su)).frameRun L (ops.map Op.plain) =
      some (m, answers)) (hc : m.Calm)
    (h2 : Created L o2 s2) (hs2 : Spec.suite o2.crypter.ciphersuite = some su)
    (hout : outDir o2.crypter su = m.out) (hin : inDir o2.crypter su = m.inp)
    (hf2 : ∀ op ∈ ops2, op.Fine) :
    (run L A s (ops ++ ops2) = .error .negativeShift ∧ run L A2 s2 ops2 = .error .negativeShift) ∨
    ∃ answers2 s1 s1' s2' evs evs1 evs2,
      run L A s ops = .ok (s1, evs) ∧ SeesAll ops evs answers ∧
      run L A s1 ops2 = .ok (s1', evs1) ∧ SeesAll ops2 evs1 answers2 ∧
      run L A2 s2 ops2 = .ok (s2', evs2) ∧ SeesAll ops2 evs2 answers2 ∧
      s1'.conn.sent.map (·.tickets) = s2'.conn.sent.map (·.tickets) := by
  obtain ⟨_, _, _, hcr, _⟩ := created_inv h
  obtain ⟨_, _, _, hcr2, _⟩ := created_inv h2
  have r1 := acts_frameRun (ops := ops) hA (Record.Acts.created (s := su) hcr hs) hf
  have e : (Machine.start (outDir o.args su) (inDir o.args su)) =
      (Machine.start (outDir o.crypter su) (inDir o.crypter su)) := rfl
  rw [e, hm] at r1
  obtain ⟨s1, evs, g1, g2, a1⟩ := r1
  have r2 := acts_frameRun (ops := ops2) hA a1 hf2
  have r3 := acts_frameRun (ops := ops2) hA2 (Record.Acts.created (s := su) hcr2 hs2) hf2
  have e2 : (Machine.start (outDir o2.args su) (inDir o2.args su)) = m := by
    rw [hc.eq_start, ← hout, ← hin]; rfl
  rw [e2] at r3
  generalize m.frameRun L (ops2.map Op.plain) = x at r2 r3
  cases x with
  | none => exact Or.inl ⟨run_append_error g1 r2, r3⟩
  | some y =>
    obtain ⟨m', as⟩ := y
    obtain ⟨s1', es1, p1, p2, p3⟩ := r2
    obtain ⟨s2', es2, q1, q2, q3⟩ := r3
    exact Or.inr ⟨as, s1, s1', s2', evs, es1, es2, g1, g2, p1, p2, q1, q2,
      by rw [p3.sent, q3.sent]⟩

/-- **C94.**  After a key update the old secret is gone.  A frame protector as above then reads one
record with a key update (whatever its request, and however much it is padded).  From there on it
answers every history of calls as one does that was created with the *next* inbound secret and
sequence number 0, and that never had the old secret. -/
theorem C94_key_update_forgets {L : Lib} {A A2 : Allocator} {o o2 : Options} {su : Spec.Suite}
    {s s2 : State} {ops ops2 : List Op} {m : Machine} {answers : List Spec.FrameAnswer}
    {request : UInt8} {k : Nat} {f : Nat → Record.Fault} {vs : List Iovec}
    (hA : AllocOk A) (hA2 : AllocOk A2)
    (h : Created L o s) (hs : Spec.suite o.crypter.ciphersuite = some su)
    (hf : ∀ op ∈ ops, op.Fine)
    (hm : (Machine.start (outDir o.crypter su) (inDir o.crypter su)).frameRun L (ops.map Op.plain) =
      some (m, answers)) (hc : m.Calm) (hseq : m.inp.seq < 2 ^ 64)
    (hu : Op.Fine (.unprotect f vs)) (hk : k ≤ 16379)
    (hb : flat vs = m.inp.protect L
      (Spec.innerPlaintext (Spec.keyUpdateMessage request) Spec.handshakeType k))
    (h2 : Created L o2 s2) (hs2 : o2.crypter.ciphersuite = o.crypter.ciphersuite)
    (hout : o2.crypter.outSecret = m.out.secret ∧ o2.crypter.outSequence.toNat = m.out.seq)
    (hin : o2.crypter.inSecret = Spec.nextSecret L su.hash m.inp.secret ∧
      o2.crypter.inSequence = 0)
    (hf2 : ∀ op ∈ ops2, op.Fine) :
    (run L A s (ops ++ [.unprotect f vs] ++ ops2) = .error .negativeShift ∧
      run L A2 s2 ops2 = .error .negativeShift) ∨
    ∃ answers2 s1 s1' s2' evs evs1 evs2,
      run L A s (ops ++ [.unprotect f vs]) = .ok (s1, evs) ∧
      SeesAll (ops ++ [.unprotect f vs]) evs (answers ++ [(.ok, [[]])]) ∧
      run L A s1 ops2 = .ok (s1', evs1) ∧ SeesAll ops2 evs1 answers2 ∧
      run L A2 s2 ops2 = .ok (s2', evs2) ∧ SeesAll ops2 evs2 answers2 ∧
      s1'.conn.sent.map (·.tickets) = s2'.conn.sent.map (·.tickets) := by
  have hrun : (Machine.start (outDir o.crypter su) (inDir o.crypter su)).frameRun L
      ((ops ++ [Op.unprotect f vs]).map Op.plain) =
      some ({ m with inp := m.inp.update L }, answers ++ [(.ok, [[]])]) := by
    rw [List.map_append, frameRun_append hm]
    simp only [List.map_cons, List.map_nil, Op.plain, hb, Machine.frameRun,
      calm_update hc request k hk hseq, Option.map_some]
  obtain ⟨d1, d2⟩ := frameRun_suited hm
  refine C94_handover hA hA2 h hs ?_ hrun ⟨hc.ear, hc.kept, hc.stage, hc.waiting, hc.closed, hc.sent, hc.outDead, hc.inDead⟩ h2 (hs2 ▸ hs) ?_ ?_ hf2
  · intro op hop
    rcases List.mem_append.1 hop with hop | hop
    · exact hf op hop
    · cases List.mem_singleton.1 hop; exact hu
  · show (⟨su, o2.crypter.outSecret, o2.crypter.outSequence.toNat⟩ : Spec.Dir) = m.out
    rw [hout.1, hout.2, ← show m.out.suite = su from d1]
  · show (⟨su, o2.crypter.inSecret, o2.crypter.inSequence.toNat⟩ : Spec.Dir) = m.inp.update L
    rw [hin.1, hin.2, ← show m.inp.suite = su from d2]
    rfl

section Witness
open Demo

/-- Data is read and sent. -/
def talk : List Op :=
  [.unprotect (fun _ => .none) [.buf (record 0 [7, 8, 23] ++ record 1 [9, 23])],
   .protect (fun _ => .none) [.buf [1], .null 0]]

/-- Where the connection is after that. -/
def later : Machine := Machine.start
  ⟨Record.Demo.suite, rightO.crypter.outSecret, rightO.crypter.outSequence.toNat + 1⟩
  ⟨Record.Demo.suite, rightO.crypter.inSecret, rightO.crypter.inSequence.toNat + 2⟩

/-- The record with a key update that comes next, and the options for a new frame protector that
begins after it. -/
def newKey : Op := .unprotect (fun _ => .none) [.buf (record 2 [24, 0, 0, 1, 0, 22])]
def heir : Options := ⟨{ rightO.crypter with
  outSequence := rightO.crypter.outSequence + 1,
  inSecret := Spec.nextSecret Lib.toy Record.Demo.suite.hash rightO.crypter.inSecret,
  inSequence := 0 }, true, true⟩

/-- Witness for `C94_handover` and `C94_key_update_forgets`: the histories, the machine after them,
that it is calm, and that the heir can be created. -/
example : Created Lib.toy rightO rightS ∧ AllocOk alloc ∧ (∀ op ∈ talk ++ [newKey], op.Fine) ∧
    (Machine.start (outDir rightO.crypter Record.Demo.suite)
      (inDir rightO.crypter Record.Demo.suite)).frameRun Lib.toy (talk.map Op.plain) =
      some (later, [(.ok, [[7, 8], [9]]), (.ok, [(outDir rightO.crypter Record.Demo.suite).protect Lib.toy [1, 23]])]) ∧
    later.Calm ∧ later.inp.seq < 2 ^ 64 ∧
    record 2 [24, 0, 0, 1, 0, 22] = later.inp.protect Lib.toy
      (Spec.innerPlaintext (Spec.keyUpdateMessage 0) Spec.handshakeType 0) ∧
    (∃ s2, Created Lib.toy heir s2) ∧ heir.crypter.outSecret = later.out.secret ∧
    heir.crypter.outSequence.toNat = later.out.seq := by
  refine ⟨right_created, alloc_ok, ?_, by decide +kernel, calm_start _ _, by decide +kernel, by decide +kernel, ⟨_, .none, .none, rfl⟩, rfl, by decide +kernel⟩
  intro op h
  simp only [talk, newKey, List.cons_append, List.nil_append, List.mem_cons, List.not_mem_nil, or_false] at h
  rcases h with rfl | rfl | rfl <;>
    simp [Op.Fine, AllWF, Iovec.WF, Spec.NonEmptyBufs] <;> decide +kernel

/-- That no ticket has come is needed: after one, application data makes the first connection hand
the ticket on, while one created anew knows nothing of it. -/
theorem C94_tickets_stay_behind : ∃ s2, Created Lib.toy ⟨{ rightO.crypter with inSequence := rightO.crypter.inSequence + 1 }, true, true⟩ s2 ∧
    (match run Lib.toy alloc rightS [.unprotect (fun _ => .none) [.buf (record 0 [4, 0, 0, 1, 5, 22])],
        .unprotect (fun _ => .none) [.buf (record 1 [7, 23])]] with
      | .ok (s, [.result r, .result r']) =>
        some (r.status == .ok && r'.status == .ok, r'.bytes.map (·.2), s.conn.sent.map (·.tickets))
      | _ => none) = some (true, [[7]], [[[4, 0, 0, 1, 5]]]) ∧
    (match run Lib.toy alloc s2 [.unprotect (fun _ => .none) [.buf (record 1 [7, 23])]] with
      | .ok (s, [.result r']) => some (r'.status, r'.bytes.map (·.2), s.conn.sent.map (·.tickets))
      | _ => none) = some (.ok, [[7]], []) :=
  ⟨_, ⟨.none, .none, rfl⟩, by decide +kernel, by decide +kernel⟩

end Witness

end S2A.Frame
