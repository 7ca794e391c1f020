import Verif.Spec.Adversary
import Verif.Spec.Threads
/-
Messages that several threads send over one connection.
-/
namespace S2A.Spec
open Frame (Op Event)

/-- A message, the call that protected it (thread and position among the calls of the thread), and
the protected bytes that the call returned. -/
structure Sent (T : Type) where
  call : T × Nat
  message : Bytes
  buffer : Bytes

/-- What a call of `Protect` is given and what it returns: the message, and the bytes to transmit.
The non-allocating variant leaves them at the start of the buffer of the caller; their number is
what `NumberBytesToProtect` says (C03). -/
def transmits : Op → Event → Option (Bytes × Bytes)
  | .protect _ vs, .result r => some (flat vs, (r.bytes.map (·.2)).flatten)
  | .protectInto _ vs _, .status _ _ out =>
    some (flat vs, out.bytes.take ((flat vs).length + 22 * recordCount (flat vs).length))
  | _, _ => none

/-- Is it a call of `Protect`? -/
def protects : Op → Bool
  | .protect .. => true
  | .protectInto .. => true
  | _ => false

/-- The buffers given to `Protect` are real memory. -/
def SendsMemory : Op → Prop
  | .protect _ vs => AllWF vs
  | .protectInto _ vs out => AllWF vs ∧ ∃ b, out = .buf b
  | _ => True

/-- What a call of `Unprotect` delivered, if it succeeded. -/
def delivered : Event → Option Bytes
  | .result r => if r.status = .ok then some (r.bytes.map (·.2)).flatten else none
  | .status .. => none

end S2A.Spec
