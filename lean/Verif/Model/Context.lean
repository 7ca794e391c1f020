import Verif.Model.Util
/-
include/s2a_context.h, src/handshaker/s2a_context.cc
-/
namespace S2A
open S2A.Proto S2A.Util

/-- `S2AContext` (include/s2a_context.h:75-83); the getters (s2a_context.cc:51-71) return the
fields. -/
structure Context where
  applicationProtocol : Bytes
  tlsVersion : TlsVersion
  ciphersuite : Ciphersuite
  peerIdentity : Identity
  localIdentity : Identity
  peerCertFingerprint : Bytes
  localCertFingerprint : Bytes
  isHandshakeResumed : Bool
  deriving DecidableEq, Repr

/-- `S2AContext::GetSerializedContext` (s2a_context.cc:73-159); `fail` is a failing
serialisation.  Setting a submessage to the null pointer leaves it out of the serialisation.
`ConvertIdentityToProto` does not fail because the arena is not null. -/
def Context.serialize (fail : Bool) (c : Context) : Except StatusCode Bytes := do
  let v ← tlsVersionToProto c.tlsVersion
  let cs ← ciphersuiteToProto c.ciphersuite
  let m : PContext :=
    { applicationProtocol := cstr c.applicationProtocol
      tlsVersion := v
      ciphersuite := cs
      peerIdentity := identityToProto c.peerIdentity
      localIdentity := identityToProto c.localIdentity
      peerCertFingerprint := cstr c.peerCertFingerprint
      localCertFingerprint := cstr c.localCertFingerprint
      isHandshakeResumed := c.isHandshakeResumed }
  if fail then .error .internal else .ok m.serialize

/-- `GetS2AContextFromSerializedContext` (s2a_context.cc:161-211). -/
def Context.deserialize (utf8 : Bytes → Bool) (bs : Bytes) : Except StatusCode Context :=
  match PContext.parse utf8 bs with
  | none => .error .internal
  | some m => do
    let v ← tlsVersionFromProto m.tlsVersion
    let cs ← ciphersuiteFromProto m.ciphersuite
    .ok { applicationProtocol := m.applicationProtocol
          tlsVersion := v
          ciphersuite := cs
          peerIdentity := identityFromProto m.peerIdentity
          localIdentity := identityFromProto m.localIdentity
          peerCertFingerprint := m.peerCertFingerprint
          localCertFingerprint := m.localCertFingerprint
          isHandshakeResumed := m.isHandshakeResumed }

end S2A
