import Verif.Model.InPlace
/-
What a caller may do with buffers that share memory.
-/
namespace S2A.Spec
open InPlace (Ptr)

/-- The memory with the bytes `w` at address `off`. -/
def replaced (m : Bytes) (off : Nat) (w : Bytes) : Bytes :=
  m.take off ++ w ++ m.drop (off + w.length)

/-- A buffer lies in the memory. -/
def Inside (m : Bytes) : Ptr → Prop
  | .mem off n => off + n ≤ m.length
  | _ => True

/-- `n` bytes from address `a` and `k` bytes from address `b` have no byte in common. -/
def Apart (a n b k : Nat) : Prop := a + n ≤ b ∨ b + k ≤ a

/-- The buffers of an input may share memory with the output at address `oo`.  A buffer that
starts `pos` bytes after the start of the input begins exactly where its own result goes,
`skip + pos - lead` bytes after the start of the output, or it is apart from the output up to the
end of its own result. -/
def Placed (lead skip oo : Nat) : (pos : Nat) → List Ptr → Prop
  | _, [] => True
  | pos, v :: vs =>
    (match v with
      | .mem off n =>
        n = 0 ∨ off + lead = oo + skip + pos ∨ Apart off n oo (skip + pos + n - lead)
      | _ => True) ∧
    Placed lead skip oo (pos + v.len) vs

/-- Where the result of the `i`-th byte of the input of `Protect` goes: a record has a header of 5
bytes, up to 16384 bytes of the input and 17 more bytes. -/
def sealedAt (i : Nat) : Nat := i / 16384 * 16406 + 5 + i % 16384

/-- The buffers of the input of `Protect` may share memory with the output at address `oo`.  A
buffer lies exactly where its own result goes and is part of one record, or it is apart from the
output up to the end of its own result. -/
def PlacedRecords (oo : Nat) : (pos : Nat) → List Ptr → Prop
  | _, [] => True
  | pos, v :: vs =>
    (match v with
      | .mem off n =>
        n = 0 ∨ (off = oo + sealedAt pos ∧ pos % 16384 + n ≤ 16384) ∨
          Apart off n oo (sealedAt (pos + n - 1) + 1)
      | _ => True) ∧
    PlacedRecords oo (pos + v.len) vs

/-- A buffer of the same length and with the same bytes that shares no memory with others. -/
def copied (m : Bytes) : Ptr → Ptr
  | .null n => .null n
  | .mem off n => .stack ((m.drop off).take n)
  | .stack d => .stack d

/-- The bytes of an input, before the call. -/
def inputBytes (m : Bytes) (vs : List Ptr) : Bytes := flat (vs.map (·.view m))

end S2A.Spec
