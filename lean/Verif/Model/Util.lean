import Verif.Model.Proto
import Verif.Model.TlsOptions
/-
src/handshaker/s2a_util.cc
-/
namespace S2A.Util
open S2A.Proto

/-- `upb_strview_makez(s.c_str())`: the bytes before the first NUL. [e.g.
src/handshaker/s2a_context.cc:78, src/handshaker/s2a_proxy.cc:373] -/
def cstr (s : Bytes) : Bytes := s.takeWhile (· ≠ 0)

/-- `ConvertTlsVersionToProto` (s2a_util.cc:31-42). -/
def tlsVersionToProto : TlsVersion → Except StatusCode Nat
  | .tls1_2 => .ok 0
  | .tls1_3 => .ok 1
  | .other _ => .error .failedPrecondition

/-- `ConvertCiphersuiteToProto` (s2a_util.cc:44-57). -/
def ciphersuiteToProto : Ciphersuite → Except StatusCode Nat
  | .aes128GcmSha256 => .ok 0
  | .aes256GcmSha384 => .ok 1
  | .chacha20Poly1305Sha256 => .ok 2
  | .other _ => .error .failedPrecondition

/-- `ConvertIdentityToProto` (s2a_util.cc:59-84) with a non-null arena: `none` is the null
pointer, returned for the empty identity. -/
def identityToProto (i : Identity) : Option PIdentity :=
  match i.type with
  | .spiffeId => some (.spiffeId (cstr i.value))
  | .hostname => some (.hostname (cstr i.value))
  | .uid => some (.uid (cstr i.value))
  | .none => none

/-- `ConvertFromProtoToTlsVersion` (s2a_util.cc:86-97). -/
def tlsVersionFromProto : Nat → Except StatusCode TlsVersion
  | 0 => .ok .tls1_2
  | 1 => .ok .tls1_3
  | _ => .error .failedPrecondition

/-- `ConvertFromProtoToCiphersuite` (s2a_util.cc:99-112). -/
def ciphersuiteFromProto : Nat → Except StatusCode Ciphersuite
  | 0 => .ok .aes128GcmSha256
  | 1 => .ok .aes256GcmSha384
  | 2 => .ok .chacha20Poly1305Sha256
  | _ => .error .failedPrecondition

/-- `ConvertFromProtoToIdentity` (s2a_util.cc:114-125); `none` is the null pointer. -/
def identityFromProto : Option PIdentity → Identity
  | some (.spiffeId s) => .fromSpiffeId s
  | some (.hostname s) => .fromHostname s
  | some (.uid s) => .fromUid s
  | some .unset => .empty
  | none => .empty

end S2A.Util
