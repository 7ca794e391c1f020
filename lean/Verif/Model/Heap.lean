import Verif.Model.Frame
/-
The memory functions that `S2AProxy` hands to the frame protectors it makes:
src/handshaker/s2a_proxy.cc:774-780.
-/
namespace S2A.Frame

/-- The arrays that are allocated. [no counterpart in the code: the heap] -/
abbrev Heap := List BufId

/-- `Allocator` (s2a_proxy.cc:774-776) and `Destroy` (s2a_proxy.cc:778-780): `new uint8_t[length]`
and `delete[]`.  To delete an array that is not allocated, because it was deleted before or never
came from `new[]`, is undefined.  `new[]` never returns an array that is still allocated.  The
heap is never exhausted. -/
def Heap.step (h : Heap) : MemEvent → Exec Heap
  | .alloc id _ => if id ∈ h then .error .assertFail else .ok (id :: h)
  | .destroy id _ => if id ∈ h then .ok (h.erase id) else .error .useAfterFree

/-- A sequence of calls of these functions (s2a_proxy.cc:774-780). -/
def Heap.run (h : Heap) : List MemEvent → Exec Heap
  | [] => .ok h
  | e :: es => do
    let h ← h.step e
    h.run es

end S2A.Frame
