import Verif.Spec.Reference
/-
The same call on a frame protector in its two forms: the one that allocates the result, and the one
that writes it to the buffer of the caller.
-/
namespace S2A.Spec

/-- The call without a buffer for the result, and the same call with a buffer that is large enough:
* for `Protect`, the bytes of the message and 22 more for each record;
* for `Unprotect`, the payload of the first record but its tag of 16 bytes; and after that record
  there are not enough bytes for another one. -/
inductive OtherForm : FrameCall → FrameCall → Prop
  | protect {b room} : b.length + 22 * recordCount b.length ≤ room →
      OtherForm (.protect b) (.protectInto b room)
  | unprotect {b room} : (∀ header payload rest, firstRecord b = some (header, payload, rest) →
        rest.length < 22 ∧ payload.length ≤ room + 16) →
      OtherForm (.unprotect b) (.unprotectInto b room)

/-- The same call, maybe in the other form, or into another buffer. -/
def Alike (x y : FrameCall) : Prop :=
  x = y ∨ OtherForm x y ∨ OtherForm y x ∨ ∃ z, OtherForm z x ∧ OtherForm z y

/-- Two histories of the same calls, each maybe in the other form. -/
inductive AllAlike : List FrameCall → List FrameCall → Prop
  | nil : AllAlike [] []
  | cons {x y xs ys} : Alike x y → AllAlike xs ys → AllAlike (x :: xs) (y :: ys)

end S2A.Spec
