import Verif.Lemmas.SaysFrame
import Verif.Props.Reference
/-
C112: every line that is logged and every message of a status, in every history of calls on a
crypter or a frame protector in which the library does not fail, is the one that the reference
machine says.
-/
set_option maxRecDepth 100000

namespace S2A.Record
open Spec (Machine)

/-- **C112.**  After every history of calls on a crypter: what the next `Protect` logs, and the
message of its status, are what `Machine.sendSays` (`Spec/Says.lean`) says, where `m` is the state
of the reference machine after the same history. -/
theorem C112_protect {L : Lib} {a : CreateArgs} {s : Spec.Suite} {c c' : Conn} {ops : List Op} {evs}
    {m : Machine} {answers} {q : String} {rt : RecordType} {plaintext : List Iovec} {record : Iovec}
    (h : Created L a c) (hs : Spec.suite a.ciphersuite = some s) (hf : ∀ op ∈ ops, op.Fine)
    (hm : (Machine.start (outDir a s) (inDir a s)).run L (ops.map Op.plain) = some (m, answers))
    (hr : run L c ops = .ok (c', evs)) (hp : AllWF plaintext) (ho : record.WF) :
    ∃ y, protectT L .none q c' rt plaintext record =
      .ok (y, m.sendSays rt (flat plaintext) record.len) := by
  have ha := acts_run (ops := ops) (Acts.created h hs) hf
  rw [hm] at ha
  obtain ⟨c1, es, e1, _, e3⟩ := ha
  rw [hr] at e1
  cases e1
  have hg := acts_send (rt := rt) e3 hp ho
  rw [← protectT_mute L .none q] at hg
  obtain ⟨c2, r, g1, _⟩ := hg
  generalize hz : protectT L .none q c' rt plaintext record = z at g1
  cases z with
  | error u => cases g1
  | ok w =>
    obtain ⟨y, said⟩ := w
    exact ⟨y, by rw [send_says e3 hp ho hz]⟩

/-- **C112.**  The same for `Unprotect`; `q` is what the library has in its error queue should it
refuse the record. -/
theorem C112_unprotect {L : Lib} {a : CreateArgs} {s : Spec.Suite} {c c' : Conn} {ops : List Op}
    {evs} {m : Machine} {answers} {q : String} {header : Iovec} {payload : List Iovec} {out : Iovec}
    (h : Created L a c) (hs : Spec.suite a.ciphersuite = some s) (hf : ∀ op ∈ ops, op.Fine)
    (hm : (Machine.start (outDir a s) (inDir a s)).run L (ops.map Op.plain) = some (m, answers))
    (hr : run L c ops = .ok (c', evs)) (hh : header.WF) (hp : AllWF payload) (ho : out.WF) :
    match m.receive L header.bytes (flat payload) out.len with
    | none => unprotectT L .none q c' header payload out = .error .negativeShift
    | some _ => ∃ y, unprotectT L .none q c' header payload out =
        .ok (y, m.receiveSays L q header.bytes (flat payload) out.len) := by
  have ha := acts_run (ops := ops) (Acts.created h hs) hf
  rw [hm] at ha
  obtain ⟨c1, es, e1, _, e3⟩ := ha
  rw [hr] at e1
  cases e1
  have hg := acts_receive e3 hh hp ho
  rw [← unprotectT_mute L .none q] at hg
  generalize hz : unprotectT L .none q c' header payload out = z at hg
  generalize m.receive L header.bytes (flat payload) out.len = o at hg
  cases z with
  | error u =>
    cases o with
    | none =>
      have hg : mute (.error u) = .error .negativeShift := hg
      cases hg
      rfl
    | some w => obtain ⟨_, _, g, _⟩ := hg; cases g
  | ok w =>
    obtain ⟨y, said⟩ := w
    cases o with
    | none =>
      have hg : mute (.ok (y, said)) = .error .negativeShift := hg
      cases hg
    | some w => exact ⟨y, by rw [receive_says e3 hh hp ho hz]⟩

section Witness
open Demo

/-- Witness for the two theorems above: the hypotheses hold for the history `demoOps`, after which
the connection is closed; before its last two calls the machine has more to say. -/
example : Created Lib.toy rightArgs right ∧
    ((Machine.start (outDir rightArgs suite) (inDir rightArgs suite)).run Lib.toy
      (demoOps.map Op.plain)).map (fun x =>
        x.1.receiveSays Lib.toy "" [23, 3, 3, 0, 17] (List.replicate 17 0) 17) =
      some (Spec.sentence "Close notify alert has been received. Close the connection.") :=
  ⟨right_created, by decide +kernel⟩

example : ((Machine.start (outDir rightArgs suite) (inDir rightArgs suite)).run Lib.toy
      ((recvAll (pos 0) [[7, 8, 23], [4, 0, 0, 22]]).map Op.plain)).map (fun x =>
        [x.1.receiveSays Lib.toy "bad tag" [23, 3, 3, 0, 17] (List.replicate 17 0) 17,
         x.1.receiveSays Lib.toy "" [23, 3, 3, 0, 17] (List.replicate 17 0) 0,
         x.1.receiveSays Lib.toy "" [23, 3, 3, 0, 18] (List.replicate 17 0) 17,
         x.1.receiveSays Lib.toy "" ((recordAt (pos 2) [1, 23]).take 5)
           ((recordAt (pos 2) [1, 23]).drop 5) 30,
         x.1.receiveSays Lib.toy "" ((recordAt (pos 2) [1, 5, 22]).take 5)
           ((recordAt (pos 2) [1, 5, 22]).drop 5) 30]) =
    some [Spec.sentence "Decryption failed: Checking tag failed: bad tag",
      Spec.sentence "Decryption failed: |plaintext| is too small to hold the decrypted ciphertext.",
      Spec.sentence "TLS 1.3 record header is invalid.",
      Spec.sentence "Received a non handshake message while expecting a handshake message.",
      Spec.silence] := by decide +kernel

end Witness

end S2A.Record

namespace S2A.Frame
open Record (inDir outDir)
open Spec (Machine AllocOk)

/-- **C112.**  In every history of calls of the four methods of a frame protector, each call logs
exactly the lines, and returns a status with exactly the message, that the reference machine
says. -/
theorem C112_frame {L : Lib} {A : Allocator} {o : Options} {su : Spec.Suite} {s : State}
    {ops : List (Op × (Nat → String))} (hA : AllocOk A) (h : Created L o s)
    (hs : Spec.suite o.crypter.ciphersuite = some su) (hf : ∀ x ∈ ops, x.1.Fine) :
    match (Machine.start (outDir o.crypter su) (inDir o.crypter su)).frameTalk L
      (ops.map fun x => (x.1.plain, x.2)) with
    | none => runT L A s ops = .error .negativeShift
    | some said => ∃ s' es, runT L A s ops = .ok (s', es) ∧ es.map (·.2) = said := by
  obtain ⟨_, _, _, hc, _⟩ := created_inv h
  have := run_says (ops := ops) hA (Record.Acts.created (s := su) hc hs) hf
  have e1 : outDir o.args su = outDir o.crypter su := rfl
  have e2 : inDir o.args su = inDir o.crypter su := rfl
  rw [e1, e2] at this
  exact this

/-- So nothing but the bytes matters: two frame protectors with the same cipher suite, secrets and
sequence numbers, given the same bytes, however these are cut into buffers and whatever is in the
buffers for the results, say the same. -/
theorem C112_bytes {L : Lib} {A B : Allocator} {o p : Options} {s t : State}
    {ops ops' : List (Op × (Nat → String))} (hA : AllocOk A) (hB : AllocOk B) (h : Created L o s)
    (h' : Created L p t) (hsuite : o.crypter.ciphersuite = p.crypter.ciphersuite)
    (hin : o.crypter.inSecret = p.crypter.inSecret) (hout : o.crypter.outSecret = p.crypter.outSecret)
    (hiseq : o.crypter.inSequence = p.crypter.inSequence)
    (hoseq : o.crypter.outSequence = p.crypter.outSequence)
    (hf : ∀ x ∈ ops, x.1.Fine) (hf' : ∀ x ∈ ops', x.1.Fine)
    (heq : (ops.map fun x => (x.1.plain, x.2)) = ops'.map fun x => (x.1.plain, x.2)) {s' es}
    (hr : runT L A s ops = .ok (s', es)) :
    ∃ t' es', runT L B t ops' = .ok (t', es') ∧ es'.map (·.2) = es.map (·.2) := by
  obtain ⟨_, _, _, hc, _⟩ := created_inv h
  obtain ⟨su, hs⟩ := Record.C90_crypter_suite hc
  have hs : Spec.suite o.crypter.ciphersuite = some su := hs
  have h1 := C112_frame hA h hs hf
  have h2 := C112_frame hB h' (hsuite ▸ hs) hf'
  have e1 : outDir p.crypter su = outDir o.crypter su := by simp [outDir, hout, hoseq]
  have e2 : inDir p.crypter su = inDir o.crypter su := by simp [inDir, hin, hiseq]
  rw [e1, e2, ← heq] at h2
  generalize (Machine.start (outDir o.crypter su) (inDir o.crypter su)).frameTalk L
    (ops.map fun x => (x.1.plain, x.2)) = x at h1 h2
  cases x with
  | none =>
    simp only at h1
    rw [hr] at h1
    cases h1
  | some said =>
    obtain ⟨_, es1, g1, g2⟩ := h1
    obtain ⟨t', es', g3, g4⟩ := h2
    rw [hr] at g1
    cases g1
    exact ⟨t', es', g3, g4.trans g2.symm⟩

section Witness
open Demo

/-- A history for the witness: that of C90, and then a call with too few bytes, one with bytes that
are not those of a record and one after the close notification. -/
def talkOps : List (Op × (Nat → String)) :=
  (demoOps ++ [Op.unprotect (fun _ => .none) [.buf [23, 3]],
    Op.unprotectInto .none [.buf (List.replicate 22 9)] (.buf [0, 0]),
    Op.unprotect (fun _ => .none) [.buf (record 5 [6, 23])],
    Op.protectInto (fun _ => .none) [.buf [1]] (.buf [0, 0])]).map fun op => (op, fun _ => "")

/-- Witness for `C112_frame`: what the machine says. -/
example : Created Lib.toy rightO rightS ∧ AllocOk alloc ∧ (∀ x ∈ talkOps, x.1.Fine) ∧
    (Machine.start (outDir rightO.crypter Record.Demo.suite)
      (inDir rightO.crypter Record.Demo.suite)).frameTalk Lib.toy
      (talkOps.map fun x => (x.1.plain, x.2)) =
    some [Spec.silence, Spec.silence, Spec.silence, Spec.silence,
      ⟨["Received close notify alert.",
        "Failed to unprotect bytes from peer: Received close notify alert."],
        "Failed to unprotect bytes from peer: Received close notify alert."⟩,
      ⟨[], "|protected_bytes| is too small to contain a TLS record."⟩,
      ⟨["Failed to compute TLS record size: TLS record header is incorrectly formatted."],
        "TLS record header is incorrectly formatted."⟩,
      ⟨["Close notify alert has been received. Close the connection.",
        "Failed to unprotect bytes from peer: Close notify alert has been received. Close the connection."],
        "Failed to unprotect bytes from peer: Close notify alert has been received. Close the connection."⟩,
      ⟨["|record| is not large enough to hold the TLS 1.3 record built from |plaintext|.",
        "Failed to protect: |record| is not large enough to hold the TLS 1.3 record built from |plaintext|."],
        "|record| is not large enough to hold the TLS 1.3 record built from |plaintext|."⟩] := by
  refine ⟨right_created, alloc_ok, ?_, by decide +kernel⟩
  intro x h
  simp only [talkOps, demoOps, List.cons_append, List.nil_append, List.map_cons, List.map_nil,
    List.mem_cons, List.not_mem_nil, or_false] at h
  rcases h with rfl | rfl | rfl | rfl | rfl | rfl | rfl | rfl | rfl <;>
    simp [Op.Fine, AllWF, Iovec.WF, Spec.NonEmptyBufs] <;> decide +kernel

end Witness

end S2A.Frame
