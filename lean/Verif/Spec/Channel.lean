import Verif.Model.Proxy
/-
Which calls of `CreateFrameProtector` take the channel factory with them.
-/
namespace S2A.Spec
open Proxy (Event)

/-- A call of `CreateFrameProtector` that was not refused with FAILED_PRECONDITION (that is, for want
of a result): it made a protector, or it tried to. -/
def attempted : Event → Bool
  | .createFrameProtector (.error .failedPrecondition) => false
  | .createFrameProtector _ => true
  | _ => false

end S2A.Spec
