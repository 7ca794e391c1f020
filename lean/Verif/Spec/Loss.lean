import Verif.Spec.Frame
import Verif.Spec.Adversary
/-
What the successful `Unprotect` calls of a frame protector hand to the user, call by call.
-/
namespace S2A.Spec

/-- The buffers delivered by the successful `Unprotect` calls of a history, in order. -/
def receivedPieces : List Frame.Op → List Frame.Event → List Bytes
  | .unprotect .. :: ops, .result r :: evs =>
    (if r.status = .ok then r.bytes.map (·.2) else []) ++ receivedPieces ops evs
  | .unprotectInto .. :: ops, .status st len out :: evs =>
    (if st = .ok then [out.bytes.take len] else []) ++ receivedPieces ops evs
  | _ :: ops, _ :: evs => receivedPieces ops evs
  | _, _ => []

/-- An allocating `Unprotect` call is given no complete record after its first one. -/
def OneRecord : Frame.Op → Prop
  | .unprotect _ vs => NonEmptyBufs vs ∧
    ∀ hd payload rest, firstRecord (flat vs) = some (hd, payload, rest) → rest.length < 22
  | _ => True

end S2A.Spec
