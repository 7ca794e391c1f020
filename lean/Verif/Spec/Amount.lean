import Verif.Model.Frame
/-
How much memory calls of the allocator ask for.
-/
namespace S2A.Spec
open Frame (MemEvent)

/-- The bytes that were asked for. -/
def bytesAllocated : List MemEvent → Nat
  | [] => 0
  | .alloc _ n :: es => n + bytesAllocated es
  | .destroy .. :: es => bytesAllocated es

/-- How often memory was asked for. -/
def allocations : List MemEvent → Nat
  | [] => 0
  | .alloc .. :: es => 1 + allocations es
  | .destroy .. :: es => allocations es

end S2A.Spec
