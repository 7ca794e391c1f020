import Verif.Model.Base
/-
include/s2a_options.h, src/options/s2a_options.cc
-/
namespace S2A

/-- `S2AOptions::TlsVersion` (include/s2a_options.h:36); `other n` is any other value. -/
inductive TlsVersion
  | tls1_2 | tls1_3
  | other (n : Nat)
  deriving DecidableEq, Repr

/-- `S2AOptions::IdentityType` (include/s2a_options.h:44). -/
inductive IdentityType
  | none | spiffeId | hostname | uid
  deriving DecidableEq, Repr

/-- `S2AOptions::Identity` (include/s2a_options.h:46-85). The type and the string are
private and set by four factory functions (src/options/s2a_options.cc:33-47). -/
structure Identity where
  type : IdentityType
  value : Bytes
  deriving DecidableEq, Repr

end S2A
