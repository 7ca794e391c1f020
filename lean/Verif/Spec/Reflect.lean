import Verif.Spec.Adversary
import Verif.Spec.Frame
/-
A network that sends everything back to where it came from.
-/
namespace S2A.Spec
open Frame

/-- Calls on one frame protector whose own output is given back to it, in order.  The list is
what is still on its way: the bytes, and the message they were made from. -/
inductive Echo (L : Lib) (A : Allocator) (s0 : State) : State → List (Bytes × Bytes) → Prop
  | start : Echo L A s0 s0 []
  | send {s wire f vs s' id w} : Echo L A s0 s wire → AllWF vs →
      protect L A f s vs = .ok (s', ⟨.ok, [(id, w)]⟩) → Echo L A s0 s' (wire ++ [(w, flat vs)])
  | back {s w m wire g ws s' r} : Echo L A s0 s ((w, m) :: wire) → NonEmptyBufs ws →
      flat ws = w → (∀ i, g i = .none) → unprotect L A g s ws = .ok (s', r) →
      Echo L A s0 s' wire

/-- No key that the connection receives with is one it sends with, in this run. -/
def DirectionsDiffer (L : Lib) (s : Suite) (a : Record.CreateArgs) (evs : List Record.Event) : Prop :=
  ∀ i ≤ epochs (Record.outTrace evs), ∀ j ≤ epochs (Record.inTrace evs),
    trafficKey L s.hash (secretAfter L s.hash a.outSecret i) s.keyLen ≠
      trafficKey L s.hash (secretAfter L s.hash a.inSecret j) s.keyLen

end S2A.Spec
