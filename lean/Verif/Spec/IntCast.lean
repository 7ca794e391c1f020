import Verif.Model.IntCast
/-
Words for C115 and C116.
-/
namespace S2A.Spec

/-- A machine on which `EVP_EncryptUpdate` and `EVP_DecryptUpdate` fail when they are given
associated data. -/
def noAad (f : EvpFault) : EvpFault := { f with aad := fun _ => true }

/-- A machine on which `EVP_DecryptUpdate` always fails. -/
def noUpdate (f : EvpFault) : EvpFault := { f with aad := fun _ => true, update := fun _ => true }

/-- The failures of the library that a machine amounts to, in a call. -/
def onMachine : ByteOrder → Frame.Op → Frame.Op
  | .little, op => op
  | .big, .protect f vs => .protect (fun i => noAad (f i)) vs
  | .big, .protectInto f vs out => .protectInto (fun i => noAad (f i)) vs out
  | .big, .unprotect f vs => .unprotect (fun i => { f i with evp := noUpdate (f i).evp }) vs
  | .big, .unprotectInto f vs out => .unprotectInto { f with evp := noUpdate f.evp } vs out

/-- The crypter uses the EVP interface: all do, but for ChaCha20-Poly1305 with BoringSSL. -/
def UsesEvp (L : Lib) (c : Aead.Crypter) : Prop := ¬ (L.boring = true ∧ c.alg = .chachaPoly)

/-- The call was refused, and gave nothing out. -/
def Refused : Frame.Event → Prop
  | .result r => r.status ≠ .ok ∧ r.bytes = []
  | .status st _ _ => st ≠ .ok

/-- The part of a buffer that a length cut to 32 bits covers. -/
def cut32 : Iovec → Iovec
  | .null n => .null (n % 2 ^ 32)
  | .buf d => .buf (d.take (d.length % 2 ^ 32))

end S2A.Spec
