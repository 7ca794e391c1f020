/-
Basic vocabulary of the model: bytes, undefined behaviour, status codes, buffers.
-/
namespace S2A

/-- Byte strings (`std::vector<uint8_t>`, `std::string` and memory regions throughout /repo/src).
-/
abbrev Bytes := List UInt8

/-- The ways in which the C++ code can leave defined behaviour (or fail an
`ABSL_ASSERT`).  A model function returns one of these instead of a value when the
code would do so. [C++ undefined behaviour anywhere in /repo/src] -/
inductive UB
  | nullDeref      -- access through a null pointer
  | outOfBounds    -- access at or beyond `iov_len` / the end of an array
  | uninitialized  -- read of memory that was never written
  | negativeShift  -- shift by a negative (huge unsigned) amount
  | sizeWrap       -- unsigned subtraction below zero that the code relies on
  | intRange       -- `static_cast<int>` of a length of 2^31 or more
  | assertFail     -- `ABSL_ASSERT` fails
  | useAfterFree   -- use of a destroyed object
  | overlap        -- input and output of a library call overlap in part
  | diverges       -- a loop does not terminate
  deriving DecidableEq, Repr

/-- Result of running code that may have undefined behaviour. [no counterpart in the code] -/
abbrev Exec := Except UB

deriving instance DecidableEq for Except

/-- `Exec` computation with no undefined behaviour. [no counterpart in the code] -/
def Exec.Defined {α : Type _} (e : Exec α) : Prop := ∃ a, e = .ok a

/-- `absl::StatusCode` (absl/status/status.h); the messages are in Model/Text.lean and
Model/TextCrypto.lean. -/
inductive StatusCode
  | ok | cancelled | unknown | invalidArgument | deadlineExceeded | notFound
  | alreadyExists | permissionDenied | resourceExhausted | failedPrecondition
  | aborted | outOfRange | unimplemented | internal | unavailable | dataLoss
  | unauthenticated
  deriving DecidableEq, Repr

/-- `S2AOptions::Ciphersuite` (include/s2a_options.h); `other n` is any other value.
[include/s2a_options.h:38-42] -/
inductive Ciphersuite
  | aes128GcmSha256 | aes256GcmSha384 | chacha20Poly1305Sha256
  | other (n : Nat)
  deriving DecidableEq, Repr

/-- `aead_crypter::Iovec` (src/crypto/s2a_aead_constants.h:29-32).
`null n` is `{nullptr, n}`; `buf d` is a non-null pointer to a region of
`iov_len = d.length` bytes with contents `d`. -/
inductive Iovec
  | null (len : Nat)
  | buf (data : Bytes)
  deriving DecidableEq, Repr

namespace Iovec

/-- `iov_len`. [src/crypto/s2a_aead_constants.h:31] -/
def len : Iovec → Nat
  | null n => n
  | buf d => d.length

/-- The bytes an iovec denotes. [src/crypto/s2a_aead_constants.h:30] -/
def bytes : Iovec → Bytes
  | null _ => []
  | buf d => d

/-- A buffer a correct caller may pass: null only when empty. [precondition; no counterpart in the
code] -/
def WF : Iovec → Prop
  | null n => n = 0
  | buf _ => True

instance : DecidablePred WF := fun v =>
  match v with
  | null n => inferInstanceAs (Decidable (n = 0))
  | buf _ => isTrue trivial

/-- The same buffer with other contents (writes through `iov_base`).
[src/crypto/s2a_aead_constants.h:30] -/
def setBytes : Iovec → Bytes → Iovec
  | null n, _ => null n
  | buf _, d => buf d

/-- `iov_base[i]`. [e.g. src/frame_protector/s2a_frame_protector.cc:122-127] -/
def byteAt : Iovec → Nat → Exec UInt8
  | null _, _ => .error .nullDeref
  | buf d, i => match d[i]? with
    | some b => .ok b
    | none => .error .outOfBounds

/-- `memcpy` of `len` bytes starting at `iov_base + off`. [e.g.
src/frame_protector/s2a_frame_protector.cc:107-131] -/
def read : Iovec → (off n : Nat) → Exec Bytes
  | null _, _, n => if n = 0 then .ok [] else .error .nullDeref
  | buf d, off, n =>
    if off + n ≤ d.length then .ok ((d.drop off).take n) else .error .outOfBounds

/-- The sub-buffer `{iov_base + off, n}`.  Forming a pointer past the end is
undefined behaviour. [e.g. src/frame_protector/s2a_frame_protector.cc:164-186] -/
def slice : Iovec → (off n : Nat) → Exec Iovec
  | null m, off, n =>
    if off + n ≤ m then .ok (null n) else .error .outOfBounds
  | buf d, off, n =>
    if off + n ≤ d.length then .ok (buf ((d.drop off).take n)) else .error .outOfBounds

end Iovec

/-- Total length of a list of buffers: the loop in `GetTotalIovecLength`
(src/frame_protector/s2a_frame_protector.cc:70-76) and the same loop in other
places.  The sum is not wrapped to 64 bits here, see Model/Size64.lean. -/
def totalLen (vs : List Iovec) : Nat := (vs.map Iovec.len).sum

/-- Concatenation of the bytes of a list of buffers. [no counterpart in the code] -/
def flat (vs : List Iovec) : Bytes := vs.flatMap Iovec.bytes

/-- All buffers are well formed. [precondition; no counterpart in the code] -/
def AllWF (vs : List Iovec) : Prop := ∀ v ∈ vs, v.WF

/-- Write `w` into `b` at offset `off` (`memcpy(b + off, w, len)`), or go out of
bounds. [e.g. src/record_protocol/handshake_message_handler.cc:182-199] -/
def writeAt (b : Bytes) (off : Nat) (w : Bytes) : Exec Bytes :=
  if off + w.length ≤ b.length then .ok (b.take off ++ w ++ b.drop (off + w.length))
  else .error .outOfBounds

/-- `size_t` subtraction that must not wrap. [e.g.
src/frame_protector/s2a_frame_protector.cc:394-465] -/
def subSize (a b : Nat) : Exec Nat := if b ≤ a then .ok (a - b) else .error .sizeWrap

/-- `memset(b, 0, len)`. [e.g. src/crypto/aes_gcm_crypter.cc:377-390] -/
def zeros (n : Nat) : Bytes := List.replicate n 0

end S2A
