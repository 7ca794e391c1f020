import Verif.Spec.Proxy
import Verif.Spec.Session
/-
What the S2As at both ends tell their proxies about one TLS session.
-/
namespace S2A.Spec
open Proto Proxy

/-- The last result in the responses of the S2A is complete, and `st` is the session state in
it. -/
def EndsWith (evs : List Proxy.Event) (st : SessionState) : Prop :=
  ∃ pre ev post r li v cs, evs = pre ++ ev :: post ∧ carried ev = some r ∧
    Complete r st li v cs ∧ ∀ ev ∈ post, carried ev = none

/-- The session states at both ends are those of one session: the same ciphersuite, and what
one end sends with the other receives with. -/
structure OneSession (a b : SessionState) : Prop where
  suite : a.ciphersuite = b.ciphersuite
  key : a.outKey = b.inKey
  key' : b.outKey = a.inKey
  seq : a.outSequence = b.inSequence
  seq' : b.outSequence = a.inSequence

/-- The session can be used by a frame protector: TLS 1.3, and keys of the size that the
ciphersuite asks for. -/
structure Usable (st : SessionState) : Prop where
  version : wireTlsVersion .tls1_3 = some st.tlsVersion
  keys : ∀ cs su, wireCiphersuite cs = some st.ciphersuite → suite cs = some su →
    st.inKey.length = su.hash.digestSize ∧ st.outKey.length = su.hash.digestSize

end S2A.Spec
