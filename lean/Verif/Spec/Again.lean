import Verif.Spec.Proxy
/-
A response of the S2A that is delivered more than once.
-/
namespace S2A.Spec
open Proto Proxy

/-- Calls between two deliveries of a response: any, but for other responses with status OK and
`GetS2AContext`. -/
def NothingNew (evs : List Event) : Prop :=
  ∀ ev ∈ evs, (∀ resp st, ev = .forPeer (some resp) st → ¬ Good resp) ∧ ∀ c, ev ≠ .getContext c

end S2A.Spec
