import Verif.Spec.Options
import Verif.Model.Proxy
/-
What the proxy should do, in terms of the calls on it and their results.
-/
namespace S2A.Spec
open Proto Proxy

/-- Reading a request as the S2A does, but accepting any bytes in strings. -/
def readRequest : Bytes → Option SessionReq := SessionReq.parse fun _ => true

/-- The request emitted by a call of `GetBytesForS2A`, with the bytes that were given. -/
def request : Event → Option (Bytes × Bytes)
  | .forS2A given ⟨.ok, _, some out⟩ _ => some (given.getD [], out)
  | _ => none

/-- All requests emitted in a history. -/
def requests (evs : List Event) : List (Bytes × Bytes) := evs.filterMap request

/-- A request that starts a session on the given side, and carries the given bytes. -/
def Starts (isClient : Bool) (given out : Bytes) : Prop :=
  ∃ m, readRequest out = some m ∧
    if isClient then given = [] ∧ ∃ c, m.kind = .clientStart c
    else ∃ c, m.kind = .serverStart c ∧ c.inBytes = given

/-- A request that continues a session and carries exactly the given bytes. -/
def Continues (given out : Bytes) : Prop :=
  given ≠ [] ∧ ∃ m, readRequest out = some m ∧ m.kind = .next ⟨given⟩

/-- A response is good if it has a status and its code is OK. -/
def Good (resp : SessionResp) : Prop := ∃ st, resp.status = some st ∧ st.code = 0

/-- The result carried by a good response. -/
def carried : Event → Option SessionResult
  | .forPeer (some resp) _ =>
    match resp.status with
    | some st => if st.code = 0 then resp.result else none
    | none => none
  | _ => none

/-- The identity in a message. -/
def identityOf : Option PIdentity → Identity
  | some (.spiffeId s) => ⟨.spiffeId, s⟩
  | some (.hostname s) => ⟨.hostname, s⟩
  | some (.uid s) => ⟨.uid, s⟩
  | _ => ⟨.none, []⟩

/-- The local identity announced by a good response. -/
def announced : Event → Option Identity
  | .forPeer (some resp) _ =>
    match resp.status with
    | some st =>
      if st.code = 0 then resp.localIdentity.map fun i => identityOf (some i) else none
    | none => none
  | _ => none

/-- A complete result: it has a state with a supported TLS version `v` and ciphersuite `cs`,
and a local identity. -/
structure Complete (r : SessionResult) (st : SessionState) (li : PIdentity) (v : TlsVersion)
    (cs : Ciphersuite) : Prop where
  state : r.state = some st
  version : wireTlsVersion v = some st.tlsVersion
  suite : wireCiphersuite cs = some st.ciphersuite
  localIdentity : r.localIdentity = some li

/-- The context that a complete result describes. -/
def contextOf (r : SessionResult) (st : SessionState) (li : PIdentity) (v : TlsVersion)
    (cs : Ciphersuite) : Context :=
  { applicationProtocol := r.applicationProtocol, tlsVersion := v, ciphersuite := cs
    peerIdentity := identityOf r.peerIdentity, localIdentity := identityOf (some li)
    peerCertFingerprint := r.peerCertFingerprint
    localCertFingerprint := r.localCertFingerprint
    isHandshakeResumed := st.isHandshakeResumed }

/-- The frame protector options that a complete result describes, with the configured address
of the S2A. -/
def protectorOptions (address : Bytes) (hasFactory : Bool) (st : SessionState) (li : PIdentity)
    (v : TlsVersion) (cs : Ciphersuite) : Frame.Options :=
  { crypter :=
      { tlsVersion := v, ciphersuite := cs, connectionId := .ofNat st.connectionId
        url := address, localIdentity := identityOf (some li), inSecret := st.inKey
        outSecret := st.outKey, inSequence := .ofNat st.inSequence
        outSequence := .ofNat st.outSequence, hasSender := true, hasFactory := hasFactory
        hasLogger := true }
    hasAllocator := true
    hasDestroy := true }

/-- The same for a result that may lack the local identity: then the connection id is lost
too. -/
def usedOptions (address : Bytes) (hasFactory : Bool) (st : SessionState) (v : TlsVersion)
    (cs : Ciphersuite) : Option PIdentity → Frame.Options
  | some li => protectorOptions address hasFactory st li v cs
  | none =>
    { crypter :=
        { (protectorOptions address hasFactory st (.uid []) v cs).crypter with
          connectionId := 0
          localIdentity := .empty }
      hasAllocator := true
      hasDestroy := true }

/-- All results received, with or without a session state. -/
def results (evs : List Event) : List SessionResult := evs.filterMap carried

/-- The last result received that had a session state. -/
def lastStated (evs : List Event) : Option SessionResult :=
  ((results evs).filter (·.state.isSome)).getLast?

/-- A result is complete for some values. -/
def IsComplete (r : SessionResult) : Prop := ∃ st li v cs, Complete r st li v cs

/-- The context waits to be fetched: it is that of a complete result, since which there was
neither another complete result nor a call of `GetS2AContext`. -/
def Waiting (evs : List Event) (ctx : Context) : Prop :=
  ∃ pre ev post r st li v cs, evs = pre ++ ev :: post ∧ carried ev = some r ∧
    Complete r st li v cs ∧ ctx = contextOf r st li v cs ∧
    ∀ x ∈ post, (∀ c, x ≠ .getContext c) ∧ ∀ r', carried x = some r' → ¬ IsComplete r'

/-- Whether a use of the keys is a key update. -/
def KeyUse.isRekey : KeyUse → Bool
  | .rekey => true
  | .aead _ _ => false

/-- Options with which both sides can send a start request: all values have a wire form. -/
structure ValidCommon (o : TlsOptions) : Prop where
  minTlsVersion : (wireTlsVersion o.minTlsVersion).isSome
  maxTlsVersion : (wireTlsVersion o.maxTlsVersion).isSome
  ciphersuites : ∀ c ∈ o.ciphersuites, (wireCiphersuite c).isSome
  locals : ∀ i ∈ o.locals, (wireIdentity i).isSome

/-- Options with which a client can send a start request. -/
structure ValidClient (o : TlsOptions) : Prop extends ValidCommon o where
  targets : ∀ i ∈ o.targets, (wireIdentity i).isSome
  oneLocal : o.locals.length ≤ 1

/-- The questions to the token manager in a call. -/
def questions : Event → Asked
  | .forS2A _ _ asked => asked
  | _ => []

/-- The identity a question is about; the default token is that of the empty identity. -/
def about (q : Question) : Identity := q.getD .empty

/-- The token that an answer gave for an identity. -/
def gave (i : Identity) (a : Question × Except StatusCode Bytes) : Option Bytes :=
  match a.2 with
  | .ok t => if about a.1 = i then some t else none
  | .error _ => none

/-- The last token that the token manager gave for an identity. -/
def latest (asked : Asked) (i : Identity) : Option Bytes := (asked.filterMap (gave i)).getLast?

/-- All questions in a history. -/
def asks (evs : List Event) : Asked := evs.flatMap questions

/-! ### The two streams that a proxy relays -/

/-- The peer's bytes that a request carries to the S2A. -/
def peerBytes (out : Bytes) : Bytes :=
  match readRequest out with
  | some ⟨.serverStart c, _⟩ => c.inBytes
  | some ⟨.next n, _⟩ => n.inBytes
  | _ => []

/-- What the user passed to the successful calls of `GetBytesForS2A`, as one stream. -/
def passedIn (evs : List Event) : Bytes := ((requests evs).map (·.1)).flatten

/-- What the S2A gets to see of the peer's bytes, as one stream. -/
def s2aHears (evs : List Event) : Bytes := ((requests evs).map fun x => peerBytes x.2).flatten

/-- What a call of `GetBytesForPeer` returned for the peer. -/
def handedOut : Event → Option Bytes
  | .forPeer _ st => st.buffer
  | _ => none

open Classical in
/-- What the S2A said for the peer in a response with status OK whose result, if it has one, is
complete. -/
noncomputable def said : Event → Option Bytes
  | .forPeer (some resp) _ =>
    if Good resp ∧ ∀ r, resp.result = some r → IsComplete r then some resp.outFrames else none
  | _ => none

/-- What the user got for the peer, as one stream. -/
def peerHears (evs : List Event) : Bytes := (evs.filterMap handedOut).flatten

/-- What the S2A said for the peer, as one stream. -/
noncomputable def s2aSays (evs : List Event) : Bytes := (evs.filterMap said).flatten

end S2A.Spec
