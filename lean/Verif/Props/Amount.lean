import Verif.Lemmas.Amount
import Verif.Props.Frame
/-
C78: how much memory the calls on a frame protector ask for.
-/
namespace S2A.Frame
open Spec (bytesAllocated allocations Bufs AllocOk)
open Demo

set_option maxRecDepth 100000

/-! ## C78: memory in proportion to the input -/

/-- Whatever the peer sent, in whatever state, with any library failures: a call of `Unprotect`
asks for fewer bytes than it was given, by the five of the header of each buffer it asks for, and
for at most one buffer for every 22 bytes. -/
theorem C78_unprotect_allocates_no_more_than_given (L : Lib) (A : Allocator) (s s' : State)
    (f : Nat → Record.Fault) (vs : List Iovec) (hv : Bufs vs) (res : Result)
    (h : unprotect L A f s vs = .ok (s', res)) :
    ∃ new, s'.mem = s.mem ++ new ∧
      bytesAllocated new + 5 * allocations new ≤ (flat vs).length ∧
      allocations new ≤ (flat vs).length / 22 ∧
      ((flat vs).length < 22 → allocations new = 0) := by
  obtain ⟨new, h1, h2, h3, h4⟩ := unprotect_amount L A f s s' vs res hv h
  exact ⟨new, h1, h2, by omega, h4⟩

/-- Two good records and one that is not, 66 bytes: three buffers of 17 bytes. -/
example : (match unprotect Lib.toy alloc (fun _ => .none) rightS
      [.buf (record 0 [23]), .buf (record 1 [23] ++ record 5 [23])] with
    | .ok (s', res) => some (res.status, bytesAllocated s'.mem, allocations s'.mem)
    | _ => none) = some (.internal, 51, 3) := by decide +kernel

/-- The form that writes into the caller's buffer asks for nothing. -/
theorem C78_in_place_allocates_nothing (L : Lib) (s s' : State) (f : Record.Fault)
    (vs : List Iovec) (out out' : Iovec) (st : StatusCode) (n : Nat)
    (h : unprotectInto L f s vs out = .ok (s', st, n, out')) : s'.mem = s.mem :=
  (unprotectInto_heap L f s s' vs out out' st n h).1

/-- `Protect` asks for one buffer, of the exact size of the records: the bytes of the message
and 22 for each record of at most 16384 bytes (and there is at least one record). -/
theorem C78_protect_allocates_exactly (L : Lib) (A : Allocator) (hA : AllocOk A) (o : Options)
    (s s' : State) (hr : Reach L A o s) (f : Nat → EvpFault) (vs : List Iovec) (res : Result)
    (h : protect L A f s vs = .ok (s', res)) :
    ∃ new, s'.mem = s.mem ++ new ∧ allocations new = 1 ∧
      bytesAllocated new = totalLen vs + 22 * max 1 ((totalLen vs + 16383) / 16384) := by
  obtain ⟨s1, res1, e, _, _, hcase⟩ := protect_call (A := A) (f := f) (vs := vs) hA hr.conn.1
  rw [h] at e
  cases e
  have hn := numberBytesToProtect_eq s (totalLen vs)
  have hk : Spec.recordCount (totalLen vs) = max 1 ((totalLen vs + 16383) / 16384) := rfl
  rcases hcase with ⟨_, hm, _⟩ | ⟨_, _, hm, _⟩
  · refine ⟨_, hm, by simp [allocations], ?_⟩
    simp only [bytesAllocated]; omega
  · refine ⟨_, hm, by simp [allocations], ?_⟩
    simp only [bytesAllocated]; omega

example : (match protect Lib.toy alloc (fun _ => .none) leftS [.buf [1, 2, 3]] with
    | .ok (s', res) => some (res.status, bytesAllocated s'.mem, allocations s'.mem)
    | _ => none) = some (.ok, 25, 1) := by decide +kernel

end S2A.Frame
