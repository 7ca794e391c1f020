import Verif.Spec.CryptoStatus
/-
The arguments for which a call of an AEAD crypter is not defined.
-/
namespace S2A.Spec
open Aead (Crypter)

/-- Does the crypter hand the buffers to the library one by one, with lengths converted to `int`?
(All but the BoringSSL implementation of ChaCha20-Poly1305.) -/
def Piecewise (L : Lib) (c : Crypter) : Prop := ¬ (L.boring = true ∧ c.alg = .chachaPoly)

/-- There is a buffer of 2^31 or more bytes, and no null pointer with a length before it. -/
def LongAad (aad : List Iovec) : Prop :=
  ∃ pre d post, aad = pre ++ .buf d :: post ∧ AllWF pre ∧ 2 ^ 31 ≤ d.length

/-- The same for data, if there is room for all of it up to the end of that buffer. -/
def LongData (pt : List Iovec) (room : Nat) : Prop :=
  ∃ pre d post, pt = pre ++ .buf d :: post ∧ AllWF pre ∧ 2 ^ 31 ≤ d.length ∧
    totalLen pre + d.length ≤ room

/-- The same for ciphertext, where the last 16 bytes, the tag, do not count. -/
def LongCiphertext (ct : List Iovec) (room : Nat) : Prop :=
  ∃ pre d post, ct = pre ++ .buf d :: post ∧ AllWF pre ∧
    2 ^ 31 ≤ min d.length (totalLen ct - 16 - totalLen pre) ∧
    totalLen pre + min d.length (totalLen ct - 16 - totalLen pre) ≤ room

/-- A null pointer with a length in the tag, with nothing wrong before it. -/
def NullInTag (ct : List Iovec) (room : Nat) : Prop :=
  ∃ pre n post, ct = pre ++ .null (n + 1) :: post ∧ AllWF pre ∧
    totalLen ct - 16 ≤ totalLen pre ∧ totalLen ct - 16 ≤ room

/-- `Encrypt` is not defined for these arguments: no buffer for the result, or one of 2^31 bytes or
more in the input, and nothing wrong before it is reached. -/
def SealUndefined (L : Lib) (c : Crypter) (nonce : Bytes) (aad pt : List Iovec) (out : Iovec) : Prop :=
  (∃ n, out = .null n) ∨
  Piecewise L c ∧ nonce.length = 12 ∧ (LongAad aad ∨ AllWF aad ∧ LongData pt out.len)

/-- `Decrypt` is not defined for these arguments: no buffer for the result though it has a length, or
a buffer of 2^31 bytes or more in the input, or a null pointer with a length in the tag, and nothing
wrong before it is reached. -/
def OpenUndefined (L : Lib) (c : Crypter) (nonce : Bytes) (aad ct : List Iovec) (out : Iovec) : Prop :=
  (∃ n, out = .null (n + 1)) ∨
  Piecewise L c ∧ nonce.length = 12 ∧ 16 ≤ totalLen ct ∧
    (LongAad aad ∨ AllWF aad ∧ (LongCiphertext ct out.len ∨ NullInTag ct out.len))

end S2A.Spec
