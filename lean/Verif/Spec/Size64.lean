import Verif.Model.Frame
/-
What C114 says about lengths that do not fit in 64 bits.
-/
namespace S2A.Spec

/-- A buffer shortened to `n` bytes. -/
def short (n : Nat) : Iovec → Iovec
  | .null _ => .null n
  | .buf d => .buf (d.take n)

/-- The first `n` bytes of a list of buffers. -/
def firstBytes : Nat → List Iovec → List Iovec
  | _, [] => []
  | n, v :: vs =>
    if n = 0 then []
    else if v.len ≤ n then v :: firstBytes (n - v.len) vs
    else [short n v]

/-- The lengths that a call of the frame protector has to do with fit in 64 bits: the input, and
the output that the allocating `Protect` asks the allocator for. -/
def Fits : Frame.Op → Prop
  | .protect _ vs => totalLen vs + 22 * (totalLen vs / 16384 + 1) < 2 ^ 64
  | .protectInto _ vs _ => totalLen vs < 2 ^ 64
  | .unprotect _ vs => totalLen vs < 2 ^ 64
  | .unprotectInto _ vs _ => totalLen vs < 2 ^ 64

/-- The same for a call of the record layer. -/
def FitsRecord : Record.Op → Prop
  | .protect _ _ vs _ => totalLen vs < 2 ^ 64
  | .unprotect _ header vs _ => header.len + totalLen vs < 2 ^ 64
  | .updateOutboundKey _ => True

end S2A.Spec
