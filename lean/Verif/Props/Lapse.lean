import Verif.Lemmas.ReferenceFault
import Verif.Props.Frame
/-
C91: what a crypter does if the cryptographic library fails, in every history.
-/
set_option maxRecDepth 100000

namespace S2A.Record
open Spec (Machine)

/-- **C91.**  For every history of calls on a crypter, with buffers that are there, in which the
library may fail anywhere: each call does what the reference machine (`Spec/Reference.lean`) does,
or, only if the library fails in it, it lapses: it returns an internal error and no bytes, and
leaves the state that `Machine.Lapse` says.  The tickets that are handed on are the machine's.
Undefined behaviour occurs only in a call for which the machine says so. -/
theorem C91_crypter {L : Lib} {a : CreateArgs} {s : Spec.Suite} {c : Conn} {ops : List Op}
    (h : Created L a c) (hs : Spec.suite a.ciphersuite = some s) (hu : ∀ op ∈ ops, op.Usable) :
    (∃ m answers c' evs, run L c ops = .ok (c', evs) ∧ evs.map Event.plain = answers ∧
      c'.sent.map (·.tickets) = m.sent ∧
      Machine.May L (Machine.start (outDir a s) (inDir a s)) (ops.map Op.flagged) m answers) ∨
    (run L c ops = .error .negativeShift ∧ ∃ before op after m answers,
      ops = before ++ op :: after ∧
      Machine.May L (Machine.start (outDir a s) (inDir a s)) (before.map Op.flagged) m answers ∧
      m.step L op.plain = none) := by
  rcases acts_run_may (ops := ops) (Acts.created h hs) hu with ⟨m, as, c', es, h1, h2, h3, h4⟩ | h
  · exact Or.inl ⟨m, as, c', es, h1, h2, h3.sent, h4⟩
  · exact Or.inr h

/-- Nothing in this is too generous: for every history of the machine, with lapses wherever it
may have them, there are failures of the library with which the calls, with the same buffers,
return exactly these answers. -/
theorem C91_crypter_exact {L : Lib} {a : CreateArgs} {s : Spec.Suite} {c : Conn} {ops : List Op}
    {xs : List (Spec.Call × Bool)} {m : Machine} {answers : List Spec.Answer}
    (h : Created L a c) (hs : Spec.suite a.ciphersuite = some s) (hu : ∀ op ∈ ops, op.Usable)
    (hx : ops.map Op.plain = xs.map Prod.fst)
    (hm : Machine.May L (Machine.start (outDir a s) (inDir a s)) xs m answers) :
    ∃ fs : List Fault, fs.length = ops.length ∧ ∃ c' evs,
      run L c (List.zipWith Op.withFault fs ops) = .ok (c', evs) ∧
      evs.map Event.plain = answers ∧ c'.sent.map (·.tickets) = m.sent := by
  obtain ⟨fs, h1, c', es, h2, h3, h4⟩ := acts_may hm (Acts.created h hs) hu hx
  exact ⟨fs, h1, c', es, h2, h3, h4.sent⟩

/-- A direction of the machine that is dead stays dead: after a failed key update nothing is sent,
or received, any more. -/
theorem C91_dead_stays {L : Lib} {m m' : Machine} {xs as} (h : Machine.May L m xs m' as) :
    (m.outDead = true → m'.outDead = true) ∧ (m.inDead = true → m'.inDead = true) := by
  have hear : ∀ {m m' : Machine} {c x}, m.hear L c = some (m', x) →
      m'.outDead = m.outDead ∧ m'.inDead = m.inDead := by
    intro m m' c x h
    unfold Machine.hear at h
    split at h
    · cases h
    · simp only [Machine.settle] at h
      split at h
      · cases h; exact ⟨rfl, rfl⟩
      · split at h
        · split at h <;> (cases h; exact ⟨rfl, rfl⟩)
        · cases h; exact ⟨rfl, rfl⟩
  have plain : ∀ {m m' : Machine} {c x}, m.plaintext L c = some (m', x) →
      m'.outDead = m.outDead ∧ m'.inDead = m.inDead := by
    intro m m' c x h
    unfold Machine.plaintext at h
    split at h
    · cases h; exact ⟨rfl, rfl⟩
    · split at h
      · split at h
        · cases h; exact ⟨rfl, rfl⟩
        · split at h <;> (cases h; exact ⟨rfl, rfl⟩)
      · split at h
        · exact hear h
        · split at h
          · split at h
            · cases h; exact ⟨rfl, rfl⟩
            · split at h <;> (cases h; exact ⟨rfl, rfl⟩)
          · cases h; exact ⟨rfl, rfl⟩
  have one : ∀ {m m' : Machine} {x a}, m.step L x = some (m', a) →
      m'.outDead = m.outDead ∧ m'.inDead = m.inDead := by
    intro m m' x a h
    cases x with
    | send t c r =>
      simp only [Machine.step, Option.some.injEq] at h
      unfold Machine.send at h
      split at h
      · cases h; exact ⟨rfl, rfl⟩
      · split at h
        · cases h; exact ⟨rfl, rfl⟩
        · split at h <;> (cases h; exact ⟨rfl, rfl⟩)
    | receive hd pl r =>
      simp only [Machine.step] at h
      unfold Machine.receive at h
      simp only at h
      repeat (split at h; · cases h; exact ⟨rfl, rfl⟩)
      have := plain h
      exact this
    | rekey => cases h; exact ⟨rfl, rfl⟩
  induction h with
  | nil m => exact ⟨id, id⟩
  | step h1 _ ih =>
    obtain ⟨e1, e2⟩ := one h1
    rw [e1, e2] at ih
    exact ih
  | @lapse m m1 m2 x xs as h1 _ ih =>
    cases x with
    | send t c r =>
      obtain ⟨_, rfl⟩ := h1
      exact ih
    | receive hd pl r =>
      obtain ⟨_, rfl | ⟨_, _, _, _, _, _, _, _, _, _, rfl⟩⟩ := h1
      · exact ih
      · exact ⟨ih.1, fun _ => ih.2 rfl⟩
    | rekey =>
      obtain rfl := h1
      exact ⟨fun _ => ih.1 rfl, ih.2⟩

section Witness
open Demo

/-- A history for the witness: a record is made, one is lost to a failure, one is made, the key
update fails, none is made; and one is received, one is lost, one is received, and a key update
arrives and fails. -/
def lapseOps : List Op :=
  [.protect .none .applicationData [.buf [1]] (.buf (List.replicate 30 9)),
   .protect .all .applicationData [.buf [2]] (.buf (List.replicate 30 9)),
   .protect .none .applicationData [.buf [3]] (.buf (List.replicate 30 9)),
   .updateOutboundKey HalfConn.KeyFault.all,
   .protect .none .applicationData [.buf [4]] (.buf (List.replicate 30 9))] ++
  (List.zipWith Op.withFault [.none, ⟨.all, .none⟩, .none, ⟨.none, HalfConn.KeyFault.all⟩, .none]
    (recvAll (pos 0) [[7, 23], [8, 23], [9, 23], [24, 0, 0, 1, 0, 22], [5, 23]]))

/-- Witness for the theorems above. -/
example : Created Lib.toy rightArgs right ∧ (∀ op ∈ lapseOps, op.Usable) ∧
    ∃ c' evs, run Lib.toy right lapseOps = .ok (c', evs) ∧
      evs.map (fun e => (e.plain.1, e.plain.2.length)) =
        [(.ok, 23), (.internalError, 0), (.ok, 23), (.internalError, 0), (.internalError, 0),
         (.ok, 1), (.internalError, 0), (.ok, 1), (.internalError, 0), (.internalError, 0)] := by
  refine ⟨right_created, ?_, ?_⟩
  · intro op h
    simp only [lapseOps, recvAll, recv, List.zipWith_cons_cons, List.zipWith_nil_left, Op.withFault,
      List.mem_append, List.mem_cons, List.not_mem_nil, or_false] at h
    rcases h with (rfl | rfl | rfl | rfl | rfl) | (rfl | rfl | rfl | rfl | rfl) <;>
      simp [Op.Usable, AllWF, Iovec.WF]
  · have : (match run Lib.toy right lapseOps with
        | .ok (_, evs) => evs.map (fun e => (e.plain.1, e.plain.2.length))
        | .error _ => []) =
        [(.ok, 23), (.internalError, 0), (.ok, 23), (.internalError, 0), (.internalError, 0),
         (.ok, 1), (.internalError, 0), (.ok, 1), (.internalError, 0), (.internalError, 0)] := by
      decide +kernel
    generalize run Lib.toy right lapseOps = x at this ⊢
    cases x with
    | error u => cases this
    | ok y => obtain ⟨c', evs⟩ := y; exact ⟨c', evs, rfl, this⟩

end Witness

end S2A.Record

namespace S2A.Frame
open Record (inDir outDir)
open Spec (Machine AllocOk)

/-- **C91.**  The same for the frame protector: in every history of calls of the four methods, in
which the library may fail anywhere, each call returns the status and the bytes that the reference
machine returns, or, only if the library fails in it, an internal error and nothing else, after
which the machine is in the state that `Machine.FrameLapse` says. -/
theorem C91_frame {L : Lib} {A : Allocator} {o : Options} {su : Spec.Suite} {s : State}
    {ops : List Op} (hA : AllocOk A) (h : Created L o s)
    (hs : Spec.suite o.crypter.ciphersuite = some su) (hu : ∀ op ∈ ops, op.Usable) :
    (∃ m answers s' evs, run L A s ops = .ok (s', evs) ∧ SeesAll ops evs answers ∧
      s'.conn.sent.map (·.tickets) = m.sent ∧
      Machine.FrameMay L (Machine.start (outDir o.crypter su) (inDir o.crypter su))
        (ops.map Op.flagged) m answers) ∨
    (run L A s ops = .error .negativeShift ∧ ∃ before op after m answers,
      ops = before ++ op :: after ∧
      Machine.FrameMay L (Machine.start (outDir o.crypter su) (inDir o.crypter su))
        (before.map Op.flagged) m answers ∧
      m.frameStep L op.plain = none) := by
  obtain ⟨_, _, _, hc, _⟩ := created_inv h
  rcases acts_frameRun_may (ops := ops) hA (Record.Acts.created (s := su) hc hs) hu with
    ⟨m, as, c', es, h1, h2, h3, h4⟩ | h
  · exact Or.inl ⟨m, as, c', es, h1, h2, h3.sent, h4⟩
  · exact Or.inr h

section Witness
open Demo

/-- A history for the witness: a message is sent, the next one is lost to a failure, the next one
is sent; and of two records that arrive together the second one is lost. -/
def lapseOps : List Op :=
  [.protect (fun _ => .none) [.buf [1], .null 0],
   .protect (fun _ => .all) [.buf [1, 2]],
   .protectInto (fun _ => .none) [.buf [1, 2]] (.buf (List.replicate 30 9)),
   .unprotect (fun i => if i = 1 then ⟨.all, .none⟩ else .none)
     [.buf (record 0 [7, 8, 23] ++ record 1 [9, 23])],
   .unprotectInto .none [.buf (record 2 [6, 23])] (.buf (List.replicate 20 9))]

/-- Witness for `C91_frame`. -/
example : Created Lib.toy rightO rightS ∧ AllocOk alloc ∧ (∀ op ∈ lapseOps, op.Usable) ∧
    ∃ s' evs, run Lib.toy alloc rightS lapseOps = .ok (s', evs) ∧
      evs.map (fun e => match e with
        | .result r => (r.status, r.bytes.map (·.2.length))
        | .status st len _ => (st, [len])) =
        [(.ok, [23]), (.internal, []), (.ok, [30]), (.internal, []), (.ok, [1])] := by
  refine ⟨right_created, alloc_ok, ?_, ?_⟩
  · intro op h
    simp only [lapseOps, List.mem_cons, List.not_mem_nil, or_false] at h
    rcases h with rfl | rfl | rfl | rfl | rfl <;>
      simp [Op.Usable, AllWF, Iovec.WF, Spec.NonEmptyBufs] <;> decide +kernel
  · have : (match run Lib.toy alloc rightS lapseOps with
        | .ok (_, evs) => evs.map (fun e => match e with
            | .result r => (r.status, r.bytes.map (·.2.length))
            | .status st len _ => (st, [len]))
        | .error _ => []) =
        [(.ok, [23]), (.internal, []), (.ok, [30]), (.internal, []), (.ok, [1])] := by
      decide +kernel
    generalize run Lib.toy alloc rightS lapseOps = x at this ⊢
    cases x with
    | error u => cases this
    | ok y => obtain ⟨c', evs⟩ := y; exact ⟨c', evs, rfl, this⟩

end Witness

end S2A.Frame
