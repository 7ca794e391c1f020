import Verif.Lemmas.Forms
import Verif.Lemmas.ReferenceHist
import Verif.Props.Frame
/-
C108: the two forms of `Protect` and of `Unprotect` agree.
-/
set_option maxRecDepth 100000

namespace S2A.Frame
open Record (inDir outDir)
open Spec (Machine AllocOk AllAlike OtherForm)

/-- **C108.**  Two protectors with the same cipher suite, secrets and sequence numbers, and two
histories of the same calls, each in either of its two forms: one history is undefined behaviour
exactly if the other one is; otherwise there is one list of answers (a status and some bytes for
each call) that both callers see, each in the form they asked for, and the same tickets are handed
on. -/
theorem C108_histories {L : Lib} {A B : Allocator} {o p : Options} {s t : State}
    {ops ops' : List Op} (hA : AllocOk A) (hB : AllocOk B) (h : Created L o s) (h' : Created L p t)
    (hsuite : o.crypter.ciphersuite = p.crypter.ciphersuite)
    (hin : o.crypter.inSecret = p.crypter.inSecret)
    (hout : o.crypter.outSecret = p.crypter.outSecret)
    (hiseq : o.crypter.inSequence = p.crypter.inSequence)
    (hoseq : o.crypter.outSequence = p.crypter.outSequence)
    (hf : ∀ op ∈ ops, op.Fine) (hf' : ∀ op ∈ ops', op.Fine)
    (ha : AllAlike (ops.map Op.plain) (ops'.map Op.plain)) :
    (run L A s ops = .error .negativeShift ∧ run L B t ops' = .error .negativeShift) ∨
    ∃ answers s' evs t' evs', run L A s ops = .ok (s', evs) ∧ run L B t ops' = .ok (t', evs') ∧
      SeesAll ops evs answers ∧ SeesAll ops' evs' answers ∧
      s'.conn.sent.map (·.tickets) = t'.conn.sent.map (·.tickets) := by
  obtain ⟨_, _, _, hc, _⟩ := created_inv h
  obtain ⟨_, _, _, hc', _⟩ := created_inv h'
  have hr : Record.Reach L o.args s.conn [] := ⟨_, [], hc, rfl⟩
  obtain ⟨su, hs⟩ := hr.suite
  have hs' : Spec.suite p.args.ciphersuite = some su := by
    have e : p.args.ciphersuite = o.args.ciphersuite := hsuite.symm
    rw [e]; exact hs
  have h1 := acts_frameRun (ops := ops) hA (Record.Acts.created hc hs) hf
  have h2 := acts_frameRun (ops := ops') hB (Record.Acts.created hc' hs') hf'
  have e1 : outDir p.args su = outDir o.args su := by
    simp [outDir, Options.args, hout, hoseq]
  have e2 : inDir p.args su = inDir o.args su := by
    simp [inDir, Options.args, hin, hiseq]
  rw [e1, e2, ← ha.run L] at h2
  generalize (Machine.start (outDir o.args su) (inDir o.args su)).frameRun L (ops.map Op.plain) = x
    at h1 h2
  cases x with
  | none => exact Or.inl ⟨h1, h2⟩
  | some y =>
    obtain ⟨m, as⟩ := y
    obtain ⟨s', es, g1, g2, g3⟩ := h1
    obtain ⟨t', es', g4, g5, g6⟩ := h2
    exact Or.inr ⟨as, s', es, t', es', g1, g4, g2, g5, g3.sent.trans g6.sent.symm⟩

/-- A protector after a history of calls with buffers that are there, in which the library may have
failed, acts like some state of the reference machine. -/
theorem acts_after {L : Lib} {A : Allocator} {o : Options} {s0 s : State} {ops : List Op}
    {evs : List Event} (hA : AllocOk A) (h : Created L o s0) (hu : ∀ op ∈ ops, op.Usable)
    (hr : run L A s0 ops = .ok (s, evs)) : ∃ m, Record.Acts L s.conn m := by
  obtain ⟨_, _, _, hc, _⟩ := created_inv h
  have hr0 : Record.Reach L o.args s0.conn [] := ⟨_, [], hc, rfl⟩
  obtain ⟨su, hs⟩ := hr0.suite
  rcases acts_frameRun_may hA (Record.Acts.created hc hs) hu with ⟨m, as, s', es, e1, _, e2, _⟩ | ⟨e, _⟩
  · rw [hr] at e1
    cases e1
    exact ⟨m, e2⟩
  · rw [hr] at e
    cases e

/-- In any state that a protector can get into — also after failures of the library — a `Protect`
into the buffer of the caller, of the same bytes and with enough room, returns the status of the
allocating one; if it succeeds, it writes the bytes that the allocating one hands out to the begin
of that buffer, keeps the length of the buffer, and leaves the rest of it as it was. -/
theorem C108_protect {L : Lib} {A : Allocator} {o : Options} {s0 s s1 : State} {ops : List Op}
    {evs : List Event} {f g : Nat → EvpFault} {vs ws : List Iovec} {out : Iovec} {r : Result}
    (hA : AllocOk A) (h : Created L o s0) (hu : ∀ op ∈ ops, op.Usable)
    (hr : run L A s0 ops = .ok (s, evs))
    (hf : ∀ j, f j = .none) (hg : ∀ j, g j = .none) (hv : AllWF vs) (hw : AllWF ws) (ho : out.WF)
    (hb : flat ws = flat vs)
    (hroom : (flat vs).length + 22 * Spec.recordCount (flat vs).length ≤ out.len)
    (hp : step L A s (.protect f vs) = .ok (s1, .result r)) :
    ∃ s2 len out', step L A s (.protectInto g ws out) = .ok (s2, .status r.status len out') ∧
      (r.status = .ok → ∃ id w, r.bytes = [(id, w)] ∧ len = out.len ∧
        out'.bytes = w ++ out.bytes.drop w.length) := by
  obtain ⟨m, a⟩ := acts_after hA h hu hr
  have h1 := acts_frameStep (op := .protect f vs) hA a ⟨hf, hv⟩
  have h2 := acts_frameStep (op := .protectInto g ws out) hA a ⟨hg, hw, ho⟩
  simp only [Op.plain, hb] at h1 h2
  rw [(OtherForm.protect hroom).step L m] at h2
  rw [hp] at h1
  simp only [Machine.frameStep] at h1 h2
  generalize hx : m.protect L (flat vs) ((flat vs).length + 22 * Spec.recordCount (flat vs).length) = x
    at h1 h2
  obtain ⟨m1, st, w⟩ := x
  obtain ⟨_, _, e1, e2, _⟩ := h1
  cases e1
  obtain ⟨s2, e, e3, e4, _⟩ := h2
  cases e with
  | result r => exact e4.elim
  | status st' len out' =>
    obtain ⟨i1, i2⟩ := e2
    obtain ⟨i3, i4⟩ := e4
    rw [← i1] at i3
    subst i3
    refine ⟨s2, len, out', e3, fun hok => ?_⟩
    obtain ⟨i5, i6⟩ := i4 hok
    rw [hok] at i1
    have hst : st = .ok := by
      cases st <;> first | rfl | cases i1
    subst hst
    simp only at i2 i6
    generalize r.bytes = bs at i2
    cases bs with
    | nil => cases i2
    | cons y ys =>
      cases ys with
      | cons z zs => simp at i2
      | nil =>
        simp only [List.map_cons, List.map_nil, List.cons.injEq, and_true] at i2
        refine ⟨y.1, y.2, rfl, i5, ?_⟩
        rw [i2]
        simpa using i6

/-- In any such state an `Unprotect` into the buffer of the caller, of the same bytes, which are one
record and maybe some bytes that are not enough for another one, and with enough room, returns the
status of the allocating one; if it succeeds, what is in that buffer, up to the length it returns,
are the bytes that the allocating one hands out. -/
theorem C108_unprotect {L : Lib} {A : Allocator} {o : Options} {s0 s s1 : State} {ops : List Op}
    {evs : List Event} {f : Nat → Record.Fault} {vs ws : List Iovec} {out : Iovec} {r : Result}
    {header payload tail : Bytes}
    (hA : AllocOk A) (h : Created L o s0) (hu : ∀ op ∈ ops, op.Usable)
    (hr : run L A s0 ops = .ok (s, evs))
    (hf : ∀ j, f j = .none) (hv : Spec.NonEmptyBufs vs) (hw : Spec.NonEmptyBufs ws) (ho : out.WF)
    (hb : flat vs = header ++ payload ++ tail) (hb' : flat ws = header ++ payload ++ tail)
    (hwhole : Spec.Whole header payload) (htail : tail.length < 22)
    (hroom : payload.length ≤ out.len + 16)
    (hp : step L A s (.unprotect f vs) = .ok (s1, .result r)) :
    ∃ s2 len out', step L A s (.unprotectInto .none ws out) = .ok (s2, .status r.status len out') ∧
      (r.status = .ok → ∃ id x, r.bytes = [(id, x)] ∧ out'.bytes.take len = x) := by
  obtain ⟨m, a⟩ := acts_after hA h hu hr
  have h1 := acts_frameStep (op := .unprotect f vs) hA a ⟨hf, hv⟩
  have h2 := acts_frameStep (op := .unprotectInto .none ws out) hA a ⟨rfl, hw, ho⟩
  have hfr : Spec.firstRecord (flat vs) = some (header, payload, tail) := by
    rw [hb]; exact firstRecord_whole hwhole tail
  have hform : OtherForm (.unprotect (flat vs)) (.unprotectInto (flat vs) out.len) := by
    refine .unprotect fun hd pl rest e => ?_
    rw [hfr] at e
    cases e
    exact ⟨htail, hroom⟩
  simp only [Op.plain, hb'.trans hb.symm] at h1 h2
  rw [hform.step L m] at h2
  rw [hp] at h1
  generalize hx : m.frameStep L (.unprotect (flat vs)) = x at h1 h2
  cases x with
  | none => cases h1
  | some x =>
    obtain ⟨m1, ans⟩ := x
    obtain ⟨_, _, e1, e2, _⟩ := h1
    cases e1
    obtain ⟨s2, e, e3, e4, _⟩ := h2
    cases e with
    | result r => exact e4.elim
    | status st' len out' =>
      obtain ⟨i1, i2⟩ := e2
      obtain ⟨i3, i4⟩ := e4
      rw [← i1] at i3
      subst i3
      refine ⟨s2, len, out', e3, fun hok => ?_⟩
      have i6 := i4 hok
      rw [hok] at i1
      have hone : ∃ x, ans.2 = [x] := by
        rw [← hform.step L m] at hx
        simp only [Machine.frameStep, Machine.unprotectFirst, hfr] at hx
        split at hx
        · cases hx; cases i1
        · generalize m.receive L header payload out.len = q at hx
          cases q with
          | none => cases hx
          | some q =>
            obtain ⟨m2, code, x⟩ := q
            cases code <;> cases hx <;> first | exact ⟨x, rfl⟩ | cases i1
      obtain ⟨x, hx'⟩ := hone
      rw [hx'] at i2 i6
      generalize r.bytes = bs at i2
      cases bs with
      | nil => cases i2
      | cons y ys =>
        cases ys with
        | cons z zs => simp at i2
        | nil =>
          simp only [List.map_cons, List.map_nil, List.cons.injEq, and_true] at i2
          refine ⟨y.1, y.2, rfl, ?_⟩
          rw [i2]
          simpa using i6

section Witness
open Demo

/-- A history for the witness, with each call in one form ... -/
def formOps : List Op :=
  [.unprotect (fun _ => .none) [.buf ((record 0 [7, 8, 23]).take 3), .buf ((record 0 [7, 8, 23]).drop 3)],
   .protect (fun _ => .none) [.buf [1], .null 0],
   .protectInto (fun _ => .none) [.buf [1, 2]] (.buf (List.replicate 30 9)),
   .unprotectInto .none [.buf (record 1 [1, 5, 23] ++ [1, 2])] (.buf (List.replicate 20 9)),
   .unprotect (fun _ => .none) [.buf (record 2 [1, 0, 21])]]

/-- ... and in the other one. -/
def formOps' : List Op :=
  [.unprotectInto .none [.buf (record 0 [7, 8, 23])] (.buf [0, 0, 0]),
   .protectInto (fun _ => .none) [.buf [1]] (.buf (List.replicate 23 5)),
   .protect (fun _ => .none) [.buf [1], .buf [2]],
   .unprotect (fun _ => .none) [.buf (record 1 [1, 5, 23]), .buf [1, 2]],
   .unprotectInto .none [.buf (record 2 [1, 0, 21])] (.buf [7, 7, 7])]

/-- Witness for `C108_histories`: its hypotheses hold, and this is what the two callers see. -/
example : Created Lib.toy rightO rightS ∧ AllocOk alloc ∧ (∀ op ∈ formOps, op.Fine) ∧
    (∀ op ∈ formOps', op.Fine) ∧ AllAlike (formOps.map Op.plain) (formOps'.map Op.plain) := by
  refine ⟨right_created, alloc_ok, ?_, ?_, ?_⟩
  · intro op h
    simp only [formOps, List.mem_cons, List.not_mem_nil, or_false] at h
    rcases h with rfl | rfl | rfl | rfl | rfl <;>
      simp [Op.Fine, AllWF, Iovec.WF, Spec.NonEmptyBufs] <;> decide +kernel
  · intro op h
    simp only [formOps', List.mem_cons, List.not_mem_nil, or_false] at h
    rcases h with rfl | rfl | rfl | rfl | rfl <;>
      simp [Op.Fine, AllWF, Iovec.WF, Spec.NonEmptyBufs] <;> decide +kernel
  · have one : ∀ {b : Bytes} {room : Nat}, (match Spec.firstRecord b with
        | none => true
        | some (_, p, rest) => rest.length < 22 && p.length ≤ room + 16) = true →
        OtherForm (.unprotect b) (.unprotectInto b room) := by
      intro b room h
      refine .unprotect fun hd p rest e => ?_
      rw [e] at h
      simpa using h
    have e : ∀ {b b' : Bytes} {room : Nat}, b = b' → OtherForm (.unprotect b') (.unprotectInto b' room) →
        OtherForm (.unprotect b) (.unprotectInto b' room) := by
      intro b b' room h; subst h; exact id
    have e' : ∀ {b b' : Bytes} {room : Nat}, b = b' → OtherForm (.protect b') (.protectInto b' room) →
        OtherForm (.protect b) (.protectInto b' room) := by
      intro b b' room h; subst h; exact id
    refine .cons (Or.inr (Or.inl (e ?_ (one ?_)))) (.cons (Or.inr (Or.inl (e' ?_ (.protect ?_))))
      (.cons (Or.inr (Or.inr (Or.inl (e' ?_ (.protect ?_)))))
      (.cons (Or.inr (Or.inr (Or.inl (e ?_ (one ?_))))) (.cons (Or.inr (Or.inl (e ?_ (one ?_)))) .nil))))
      <;> decide +kernel

/-- What the two callers see: bytes handed out, and bytes in buffers. -/
example : (run Lib.toy alloc rightS formOps).toOption.map (·.2.map fun
      | .result r => (r.status, r.bytes.map (·.2.length))
      | .status st len _ => (st, [len])) =
      some [(.ok, [2]), (.ok, [23]), (.ok, [30]), (.ok, [2]), (.internal, [])] ∧
    (run Lib.toy alloc rightS formOps').toOption.map (·.2.map fun
      | .result r => (r.status, r.bytes.map (·.2.length))
      | .status st len _ => (st, [len])) =
      some [(.ok, [2]), (.ok, [23]), (.ok, [24]), (.ok, [2]), (.internal, [0])] := by
  decide +kernel

/-- The conditions are needed: with one byte of room less `Protect` fails, and of two records
`Unprotect` into a buffer delivers one. -/
example : (step Lib.toy alloc rightS (.protect (fun _ => .none) [.buf [1]])).toOption.map
      (fun x => match x.2 with | .result r => r.status | .status st _ _ => st) = some .ok ∧
    (step Lib.toy alloc rightS (.protectInto (fun _ => .none) [.buf [1]]
      (.buf (List.replicate 22 5)))).toOption.map
      (fun x => match x.2 with | .result r => r.status | .status st _ _ => st) =
      some .failedPrecondition ∧
    (step Lib.toy alloc rightS (.unprotect (fun _ => .none)
      [.buf (record 0 [7, 23] ++ record 1 [8, 23])])).toOption.map
      (fun x => match x.2 with | .result r => r.bytes.map (·.2) | .status _ _ _ => []) =
      some [[7], [8]] ∧
    (step Lib.toy alloc rightS (.unprotectInto .none
      [.buf (record 0 [7, 23] ++ record 1 [8, 23])] (.buf [0, 0, 0]))).toOption.map
      (fun x => match x.2 with | .result _ => [] | .status _ len out => out.bytes.take len) =
      some [7] := by
  decide +kernel

/-- Witness for `C108_protect`. -/
example : ∃ s1 r, step Lib.toy alloc rightS (.protect (fun _ => .none) [.buf [1], .buf [2]]) =
      .ok (s1, .result r) ∧ r.status = .ok ∧ flat [.buf [1, 2]] = flat [.buf [1], .buf [2]] ∧
      (flat [.buf [1], .buf [2]]).length + 22 * Spec.recordCount (flat [.buf [1], .buf [2]]).length ≤
        (Iovec.buf (List.replicate 30 9)).len := by
  refine ⟨_, _, rfl, ?_, ?_, ?_⟩ <;> decide +kernel

/-- Witness for `C108_unprotect`. -/
example : ∃ s1 r header payload, step Lib.toy alloc rightS (.unprotect (fun _ => .none)
      [.buf (record 0 [7, 8, 23])]) = .ok (s1, .result r) ∧ r.status = .ok ∧
      flat [.buf (record 0 [7, 8, 23])] = header ++ payload ++ [] ∧ Spec.Whole header payload ∧
      payload.length ≤ (Iovec.buf [0, 0, 0]).len + 16 := by
  refine ⟨_, _, (record 0 [7, 8, 23]).take 5, (record 0 [7, 8, 23]).drop 5, rfl, ?_, ?_, ⟨?_, ?_⟩, ?_⟩ <;>
    decide +kernel

end Witness

end S2A.Frame
