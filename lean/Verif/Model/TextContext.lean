import Verif.Model.Context
import Verif.Model.Text
/-
The messages of the functions of src/handshaker/s2a_context.cc, as in Model/Text.lean.  These
functions log nothing.
-/
namespace S2A
open S2A.Proto S2A.Util

/-- `S2AContext::GetSerializedContext` (s2a_context.cc:73-159), as `Context.serialize`, with the
messages of the errors (s2a_util.cc:39-40, 54-55; s2a_context.cc:150-151). -/
def Context.serializeT (fail : Bool) (c : Context) : Except (StatusCode × String) Bytes := do
  let v ← withText "Unsupported TLS version." (tlsVersionToProto c.tlsVersion)
  let cs ← withText "Unsupported ciphersuite." (ciphersuiteToProto c.ciphersuite)
  let m : PContext :=
    { applicationProtocol := cstr c.applicationProtocol
      tlsVersion := v
      ciphersuite := cs
      peerIdentity := identityToProto c.peerIdentity
      localIdentity := identityToProto c.localIdentity
      peerCertFingerprint := cstr c.peerCertFingerprint
      localCertFingerprint := cstr c.localCertFingerprint
      isHandshakeResumed := c.isHandshakeResumed }
  if fail then .error (.internal, "Error when serializing |S2AContext|.") else .ok m.serialize

/-- `GetS2AContextFromSerializedContext` (s2a_context.cc:161-211), as `Context.deserialize`, with
the messages of the errors (s2a_context.cc:167; s2a_util.cc:94-95, 109-110). -/
def Context.deserializeT (utf8 : Bytes → Bool) (bs : Bytes) :
    Except (StatusCode × String) Context :=
  match PContext.parse utf8 bs with
  | none => .error (.internal, "Unable to deserialize S2A context.")
  | some m => do
    let v ← withText "Unsupported TLS version." (tlsVersionFromProto m.tlsVersion)
    let cs ← withText "Unsupported ciphersuite." (ciphersuiteFromProto m.ciphersuite)
    .ok { applicationProtocol := m.applicationProtocol
          tlsVersion := v
          ciphersuite := cs
          peerIdentity := identityFromProto m.peerIdentity
          localIdentity := identityFromProto m.localIdentity
          peerCertFingerprint := m.peerCertFingerprint
          localCertFingerprint := m.localCertFingerprint
          isHandshakeResumed := m.isHandshakeResumed }

end S2A
