import Verif.Spec.Aead
import Verif.Model.Aead
/-
What can be wrong with a call of an AEAD crypter: its arguments, the library, or the message.
-/
namespace S2A.Spec
open Aead (Crypter)

/-- Arguments with which something can be sealed: a nonce of 12 bytes, no null pointer with a length,
room for ciphertext and tag. -/
structure GoodSeal (nonce : Bytes) (aad pt : List Iovec) (room : Nat) : Prop where
  nonce : nonce.length = 12
  aad : AllWF aad
  data : AllWF pt
  room : (flat pt).length + 16 ≤ room

/-- Arguments with which something can be opened: a nonce of 12 bytes, no null pointer with a length,
at least a tag, room for the plaintext. -/
structure GoodOpen (nonce : Bytes) (aad ct : List Iovec) (room : Nat) : Prop where
  nonce : nonce.length = 12
  aad : AllWF aad
  data : AllWF ct
  tag : 16 ≤ (flat ct).length
  room : (flat ct).length - 16 ≤ room

/-- The library is called for the associated data of a non-empty buffer and that call fails. -/
def AadCallFails (f : EvpFault) (aad : List Iovec) : Prop :=
  ∃ j v, aad[j]? = some v ∧ v.len ≠ 0 ∧ f.aad j = true

/-- The same for the plaintext. -/
def SealCallFails (f : EvpFault) (pt : List Iovec) : Prop :=
  ∃ j v, pt[j]? = some v ∧ v.len ≠ 0 ∧ f.update j = true

/-- The same for the ciphertext; there is no call for the buffers in which there is nothing but the
tag. -/
def OpenCallFails (f : EvpFault) (ct : List Iovec) : Prop :=
  ∃ j v, ct[j]? = some v ∧ v.len ≠ 0 ∧ totalLen (ct.take j) + 16 < totalLen ct ∧ f.update j = true

/-- A call of the library that `Encrypt` makes fails. -/
def SealFails (L : Lib) (c : Crypter) (f : EvpFault) (aad pt : List Iovec) : Prop :=
  if L.boring = true ∧ c.alg = .chachaPoly then f.oneShot = true
  else f.init = true ∨ AadCallFails f aad ∨ SealCallFails f pt ∨ f.final = true ∨ f.tag = true

/-- A call of the library that `Decrypt` makes fails, though the tag may be right. -/
def OpenFails (L : Lib) (c : Crypter) (f : EvpFault) (aad ct : List Iovec) : Prop :=
  if L.boring = true ∧ c.alg = .chachaPoly then f.oneShot = true
  else f.init = true ∨ AadCallFails f aad ∨ OpenCallFails f ct ∨ f.final = true ∨ f.tag = true

end S2A.Spec
