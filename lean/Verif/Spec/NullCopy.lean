import Verif.Spec.Proxy
import Verif.Model.Aead
/-
Where the code copies or clears no bytes through a pointer that may be null.
-/
namespace S2A.Spec.NullCopy
open Proto

/-- A response that makes a call of `GetBytesForPeer` copy an empty string: the S2A reports no
error, and
* it has no result and no bytes for the peer, or
* it has a result whose state has a supported TLS version and ciphersuite, and one of the traffic
  secrets is empty, or the result is complete and there are no bytes for the peer. -/
def CopiesNothing (resp : SessionResp) : Prop :=
  Good resp ∧
    match resp.result with
    | none => resp.outFrames = []
    | some r =>
      ∃ st v cs, r.state = some st ∧ wireTlsVersion v = some st.tlsVersion ∧
        wireCiphersuite cs = some st.ciphersuite ∧
        (st.inKey = [] ∨ st.outKey = [] ∨ r.localIdentity.isSome ∧ resp.outFrames = [])

/-- A context that says nothing: no strings, as far as the first zero byte, TLS 1.2 and AES-128, no
identities, not resumed. -/
structure Blank (c : Context) : Prop where
  protocol : c.applicationProtocol.head?.getD 0 = 0
  version : c.tlsVersion = .tls1_2
  suite : c.ciphersuite = .aes128GcmSha256
  peer : c.peerIdentity.type = .none
  self : c.localIdentity.type = .none
  peerCert : c.peerCertFingerprint.head?.getD 0 = 0
  localCert : c.localCertFingerprint.head?.getD 0 = 0
  resumed : c.isHandshakeResumed = false

/-- A buffer whose pointer is not null. -/
def NotNull (v : Iovec) : Prop := ∃ d, v = .buf d

end S2A.Spec.NullCopy
