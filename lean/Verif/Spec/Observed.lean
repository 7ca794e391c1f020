import Verif.Spec.Reference
/-
What the callers of a crypter and of a frame protector give and see, in terms of byte strings.
-/
namespace S2A.Record

/-- The bytes and the room of a call. -/
def Op.plain : Op → Spec.Call
  | .protect _ rt pt rec => .send rt (flat pt) rec.len
  | .unprotect _ h pl out => .receive h.bytes (flat pl) out.len
  | .updateOutboundKey _ => .rekey

/-- What the caller sees of a call: the code, and the bytes that were written. -/
def Event.plain : Event → Spec.Answer
  | .sealed r => (r.code, r.out.bytes.take r.written)
  | .opened r => (r.code, r.out.bytes.take r.written)
  | .outboundUpdated st => (if st = .ok then .ok else .internalError, [])

/-- A call with buffers that are there. -/
def Op.Usable : Op → Prop
  | .protect _ _ pt rec => AllWF pt ∧ rec.WF
  | .unprotect _ h pl out => h.WF ∧ AllWF pl ∧ out.WF
  | .updateOutboundKey _ => True

/-- A call in which the library fails somewhere. -/
def Op.Troubled : Op → Prop
  | .protect f _ _ _ => f ≠ .none
  | .unprotect f _ _ _ => f ≠ .none
  | .updateOutboundKey f => f ≠ .none

open Classical in
/-- The bytes and the room of a call, and whether the library fails in it. -/
noncomputable def Op.flagged (op : Op) : Spec.Call × Bool := (op.plain, decide op.Troubled)

/-- A call without a failure of the library, with buffers that are there. -/
def Op.Fine : Op → Prop
  | .protect f _ pt rec => f = .none ∧ AllWF pt ∧ rec.WF
  | .unprotect f h pl out => f = .none ∧ h.WF ∧ AllWF pl ∧ out.WF
  | .updateOutboundKey f => f = .none

end S2A.Record

namespace S2A.Frame

/-- The bytes of the buffers of a call and the room for its result. -/
def Op.plain : Op → Spec.FrameCall
  | .protect _ vs => .protect (flat vs)
  | .protectInto _ vs out => .protectInto (flat vs) out.len
  | .unprotect _ vs => .unprotect (flat vs)
  | .unprotectInto _ vs out => .unprotectInto (flat vs) out.len

/-- A call with buffers that are there (and, for `Unprotect`, input buffers that are not empty). -/
def Op.Usable : Op → Prop
  | .protect _ vs => AllWF vs
  | .protectInto _ vs out => AllWF vs ∧ out.WF
  | .unprotect _ vs => Spec.NonEmptyBufs vs
  | .unprotectInto _ vs out => Spec.NonEmptyBufs vs ∧ out.WF

/-- A call in which the library fails somewhere. -/
def Op.Troubled : Op → Prop
  | .protect f _ => ∃ j, f j ≠ .none
  | .protectInto f _ _ => ∃ j, f j ≠ .none
  | .unprotect f _ => ∃ j, f j ≠ .none
  | .unprotectInto f _ _ => f ≠ .none

open Classical in
/-- The bytes and the room of a call, and whether the library fails in it. -/
noncomputable def Op.flagged (op : Op) : Spec.FrameCall × Bool := (op.plain, decide op.Troubled)

/-- A call without a failure of the library, with buffers that are there (and, for `Unprotect`,
input buffers that are not empty). -/
def Op.Fine : Op → Prop
  | .protect f vs => (∀ j, f j = .none) ∧ AllWF vs
  | .protectInto f vs out => (∀ j, f j = .none) ∧ AllWF vs ∧ out.WF
  | .unprotect f vs => (∀ j, f j = .none) ∧ Spec.NonEmptyBufs vs
  | .unprotectInto f vs out => f = .none ∧ Spec.NonEmptyBufs vs ∧ out.WF

/-- What the caller sees after a call is the answer: the status, and
* the contents of the buffers handed out, or
* after a successful `Protect` into the caller's buffer, that buffer: the answer at its begin, and
  what was there after it, or
* after a successful `Unprotect` into the caller's buffer, what is there up to the returned
  length. -/
def Sees : Op → Event → Spec.FrameAnswer → Prop
  | .protectInto _ _ out, .status st len out', ans =>
    st = ans.1 ∧ (st = .ok → len = out.len ∧
      out'.bytes = ans.2.flatten ++ out.bytes.drop ans.2.flatten.length)
  | .unprotectInto _ _ _, .status st len out', ans =>
    st = ans.1 ∧ (st = .ok → out'.bytes.take len = ans.2.flatten)
  | .protect _ _, .result r, ans => r.status = ans.1 ∧ r.bytes.map (·.2) = ans.2
  | .unprotect _ _, .result r, ans => r.status = ans.1 ∧ r.bytes.map (·.2) = ans.2
  | _, _, _ => False

/-- The same with an allocator that may give more than it is asked for: `Protect` hands out the
whole buffer it got — the answer, and after it whatever was in the rest of that buffer. -/
def SeesRoomy (A : Allocator) : Op → Event → Spec.FrameAnswer → Prop
  | .protect f vs, .result r, ans =>
    if ans.1 = .ok then r.status = .ok ∧ ∃ i, r.bytes = [(.heap i,
      ans.2.flatten ++ (A i ans.2.flatten.length).bytes.drop ans.2.flatten.length)]
    else Sees (.protect f vs) (.result r) ans
  | op, e, ans => Sees op e ans

/-- A history in the same way. -/
def SeesAllRoomy (A : Allocator) : List Op → List Event → List Spec.FrameAnswer → Prop
  | [], [], [] => True
  | op :: ops, e :: es, ans :: as => SeesRoomy A op e ans ∧ SeesAllRoomy A ops es as
  | _, _, _ => False

/-- What the caller sees in a history is what the machine says. -/
def SeesAll : List Op → List Event → List Spec.FrameAnswer → Prop
  | [], [], [] => True
  | op :: ops, e :: es, ans :: as => Sees op e ans ∧ SeesAll ops es as
  | _, _, _ => False

end S2A.Frame
