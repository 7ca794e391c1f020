import Verif.Model.Wire
import Verif.Model.Options
/-
The messages of src/proto/common.proto, src/proto/s2a.proto and src/proto/s2a_context.proto,
their serialisation (field numbers and types as in src/proto/upb-generated/proto/*.upb.c) and
their parsing.  `utf8` is the validation of strings done when parsing, see
`Wire.checkStrings`.
-/
namespace S2A.Proto
open S2A.Wire

/-- `Identity` (common.proto:36-50); the map `attributes` is never looked at or written by the
code; the parser only checks it. -/
inductive PIdentity
  | unset
  | spiffeId (s : Bytes)
  | hostname (s : Bytes)
  | uid (s : Bytes)
  deriving DecidableEq, Repr

/-- The fields written (table at upb-generated/proto/common.upb.c:25-30). -/
def PIdentity.fields : PIdentity → List Field
  | .unset => []
  | .spiffeId s => [(1, .len s)]
  | .hostname s => [(2, .len s)]
  | .uid s => [(4, .len s)]

/-- upb-generated/proto/common.upb.h:63. -/
def PIdentity.serialize (i : PIdentity) : Bytes := encode i.fields

/-- What one field says about the `oneof` of an `Identity` (common.proto:37-46). -/
def PIdentity.ofField : Field → Option PIdentity
  | (1, .len s) => some (.spiffeId s)
  | (2, .len s) => some (.hostname s)
  | (4, .len s) => some (.uid s)
  | _ => none

/-- upb-generated/proto/common.upb.h:52. -/
def PIdentity.parse (utf8 : Bytes → Bool) (bs : Bytes) : Option PIdentity := do
  let fs ← decode bs
  if !checkStrings utf8 [1, 2, 4] fs then none
  else if !checkEntries utf8 3 fs then none
  else some ((fs.filterMap ofField).getLast?.getD .unset)

/-- `AuthenticationMechanism` (s2a.proto:21-32). -/
structure AuthMechanism where
  identity : Option PIdentity
  token : Option Bytes
  deriving DecidableEq, Repr

/-- The fields written (table at upb-generated/proto/s2a.upb.c:26-29). -/
def AuthMechanism.fields (m : AuthMechanism) : List Field :=
  putOpt 1 (m.identity.map PIdentity.serialize) ++ putOpt 2 m.token

/-- upb-generated/proto/s2a.upb.h:78. -/
def AuthMechanism.serialize (m : AuthMechanism) : Bytes := encode m.fields

/-- upb-generated/proto/s2a.upb.h:67. -/
def AuthMechanism.parse (utf8 : Bytes → Bool) (bs : Bytes) : Option AuthMechanism := do
  let fs ← decode bs
  if !checkStrings utf8 [2] fs then none
  else
    let i ← getSub (PIdentity.parse utf8) 1 fs
    some ⟨i, (lens 2 fs).getLast?⟩

/-- `ClientSessionStartReq` (s2a.proto:34-70).  Enum values are numbers. -/
structure ClientStart where
  applicationProtocols : List Bytes
  minTlsVersion : Nat
  maxTlsVersion : Nat
  ciphersuites : List Nat
  targetIdentities : List PIdentity
  localIdentity : Option PIdentity
  targetName : Bytes
  deriving DecidableEq, Repr

/-- The fields written (table at upb-generated/proto/s2a.upb.c:41-49). -/
def ClientStart.fields (m : ClientStart) : List Field :=
  putAll 1 m.applicationProtocols ++ putNum 2 m.minTlsVersion ++ putNum 3 m.maxTlsVersion ++
    putPacked 4 m.ciphersuites ++ putAll 5 (m.targetIdentities.map PIdentity.serialize) ++
    putOpt 6 (m.localIdentity.map PIdentity.serialize) ++ putBytes 7 m.targetName

/-- upb-generated/proto/s2a.upb.h:126. -/
def ClientStart.serialize (m : ClientStart) : Bytes := encode m.fields

/-- upb-generated/proto/s2a.upb.h:115. -/
def ClientStart.parse (utf8 : Bytes → Bool) (bs : Bytes) : Option ClientStart := do
  let fs ← decode bs
  if !checkStrings utf8 [1, 7] fs then none
  else
    let cs ← getRepeated 4 fs
    let ts ← getSubs (PIdentity.parse utf8) 5 fs
    let li ← getSub (PIdentity.parse utf8) 6 fs
    some ⟨lens 1 fs, getU32 2 fs, getU32 3 fs, cs, ts, li, getBytes 7 fs⟩

/-- `ServerSessionStartReq` (s2a.proto:72-102). -/
structure ServerStart where
  applicationProtocols : List Bytes
  minTlsVersion : Nat
  maxTlsVersion : Nat
  ciphersuites : List Nat
  localIdentities : List PIdentity
  inBytes : Bytes
  deriving DecidableEq, Repr

/-- The fields written (table at upb-generated/proto/s2a.upb.c:61-68). -/
def ServerStart.fields (m : ServerStart) : List Field :=
  putAll 1 m.applicationProtocols ++ putNum 2 m.minTlsVersion ++ putNum 3 m.maxTlsVersion ++
    putPacked 4 m.ciphersuites ++ putAll 5 (m.localIdentities.map PIdentity.serialize) ++
    putBytes 6 m.inBytes

/-- upb-generated/proto/s2a.upb.h:212. -/
def ServerStart.serialize (m : ServerStart) : Bytes := encode m.fields

/-- upb-generated/proto/s2a.upb.h:201. -/
def ServerStart.parse (utf8 : Bytes → Bool) (bs : Bytes) : Option ServerStart := do
  let fs ← decode bs
  if !checkStrings utf8 [1] fs then none
  else
    let cs ← getRepeated 4 fs
    let ls ← getSubs (PIdentity.parse utf8) 5 fs
    some ⟨lens 1 fs, getU32 2 fs, getU32 3 fs, cs, ls, getBytes 6 fs⟩

/-- `SessionNextReq` (s2a.proto:104-114). -/
structure NextReq where
  inBytes : Bytes
  deriving DecidableEq, Repr

/-- The fields written (table at upb-generated/proto/s2a.upb.c:76-78). -/
def NextReq.fields (m : NextReq) : List Field := putBytes 1 m.inBytes

/-- upb-generated/proto/s2a.upb.h:283. -/
def NextReq.serialize (m : NextReq) : Bytes := encode m.fields

/-- upb-generated/proto/s2a.upb.h:272. -/
def NextReq.parse (bs : Bytes) : Option NextReq := do
  let fs ← decode bs
  some ⟨getBytes 1 fs⟩

/-- `ResumptionTicketReq` (s2a.proto:119-131). -/
structure TicketReq where
  inBytes : List Bytes
  connectionId : Nat
  localIdentity : Option PIdentity
  deriving DecidableEq, Repr

/-- The fields written (table at upb-generated/proto/s2a.upb.c:90-94). -/
def TicketReq.fields (m : TicketReq) : List Field :=
  putAll 1 m.inBytes ++ putNum 2 m.connectionId ++
    putOpt 3 (m.localIdentity.map PIdentity.serialize)

/-- upb-generated/proto/s2a.upb.h:309. -/
def TicketReq.serialize (m : TicketReq) : Bytes := encode m.fields

/-- upb-generated/proto/s2a.upb.h:298. -/
def TicketReq.parse (utf8 : Bytes → Bool) (bs : Bytes) : Option TicketReq := do
  let fs ← decode bs
  let li ← getSub (PIdentity.parse utf8) 3 fs
  some ⟨lens 1 fs, getU64 2 fs, li⟩

/-- The `oneof` of `SessionReq` (s2a.proto:133-156). -/
inductive ReqKind
  | unset
  | clientStart (m : ClientStart)
  | serverStart (m : ServerStart)
  | next (m : NextReq)
  | resumptionTicket (m : TicketReq)
  deriving DecidableEq, Repr

/-- `SessionReq` (s2a.proto:133-156). -/
structure SessionReq where
  kind : ReqKind
  authMechanisms : List AuthMechanism
  deriving DecidableEq, Repr

/-- The fields written (table at upb-generated/proto/s2a.upb.c:110-116). -/
def ReqKind.fields : ReqKind → List Field
  | .unset => []
  | .clientStart m => [(1, .len m.serialize)]
  | .serverStart m => [(2, .len m.serialize)]
  | .next m => [(3, .len m.serialize)]
  | .resumptionTicket m => [(4, .len m.serialize)]

/-- The fields written (table at upb-generated/proto/s2a.upb.c:110-116). -/
def SessionReq.fields (m : SessionReq) : List Field :=
  m.kind.fields ++ putAll 5 (m.authMechanisms.map AuthMechanism.serialize)

/-- `s2a_proto_SessionReq_serialize` (upb-generated/proto/s2a.upb.h:361). -/
def SessionReq.serialize (m : SessionReq) : Bytes := encode m.fields

/-- What one field says about the `oneof` of a `SessionReq`. [src/proto/s2a.proto:133-156] -/
def ReqKind.ofField (utf8 : Bytes → Bool) : Field → Option (Option ReqKind)
  | (1, .len s) => (ClientStart.parse utf8 s).map fun m => some (.clientStart m)
  | (2, .len s) => (ServerStart.parse utf8 s).map fun m => some (.serverStart m)
  | (3, .len s) => (NextReq.parse s).map fun m => some (.next m)
  | (4, .len s) => (TicketReq.parse utf8 s).map fun m => some (.resumptionTicket m)
  | _ => some none

/-- Parsing a `SessionReq` (done by the S2A, not by the code).  Of several members of the
`oneof` the last counts; merging two occurrences of the same member is not modelled.
[src/proto/s2a.proto:133-156] -/
def SessionReq.parse (utf8 : Bytes → Bool) (bs : Bytes) : Option SessionReq := do
  let fs ← decode bs
  let ks ← fs.mapM (ReqKind.ofField utf8)
  let ms ← getSubs (AuthMechanism.parse utf8) 5 fs
  some ⟨(ks.filterMap id).getLast?.getD .unset, ms⟩

/-- `SessionState` (s2a.proto:158-189), without the fixed nonces, which the code does not
read. -/
structure SessionState where
  tlsVersion : Nat
  ciphersuite : Nat
  inSequence : Nat
  outSequence : Nat
  inKey : Bytes
  outKey : Bytes
  connectionId : Nat
  isHandshakeResumed : Bool
  deriving DecidableEq, Repr

/-- The fields written (table at upb-generated/proto/s2a.upb.c:124-135). -/
def SessionState.fields (m : SessionState) : List Field :=
  putNum 1 m.tlsVersion ++ putNum 2 m.ciphersuite ++ putNum 3 m.inSequence ++
    putNum 4 m.outSequence ++ putBytes 5 m.inKey ++ putBytes 6 m.outKey ++
    putNum 9 m.connectionId ++ putBool 10 m.isHandshakeResumed

/-- upb-generated/proto/s2a.upb.h:463. -/
def SessionState.serialize (m : SessionState) : Bytes := encode m.fields

/-- upb-generated/proto/s2a.upb.h:452. -/
def SessionState.parse (bs : Bytes) : Option SessionState := do
  let fs ← decode bs
  some ⟨getU32 1 fs, getU32 2 fs, getU64 3 fs, getU64 4 fs, getBytes 5 fs, getBytes 6 fs,
    getU64 9 fs, getBool 10 fs⟩

/-- `SessionResult` (s2a.proto:191-215). -/
structure SessionResult where
  applicationProtocol : Bytes
  state : Option SessionState
  peerIdentity : Option PIdentity
  localIdentity : Option PIdentity
  localCertFingerprint : Bytes
  peerCertFingerprint : Bytes
  deriving DecidableEq, Repr

/-- The fields written (table at upb-generated/proto/s2a.upb.c:148-155). -/
def SessionResult.fields (m : SessionResult) : List Field :=
  putBytes 1 m.applicationProtocol ++ putOpt 2 (m.state.map SessionState.serialize) ++
    putOpt 4 (m.peerIdentity.map PIdentity.serialize) ++
    putOpt 5 (m.localIdentity.map PIdentity.serialize) ++
    putBytes 6 m.localCertFingerprint ++ putBytes 7 m.peerCertFingerprint

/-- upb-generated/proto/s2a.upb.h:525. -/
def SessionResult.serialize (m : SessionResult) : Bytes := encode m.fields

/-- upb-generated/proto/s2a.upb.h:514. -/
def SessionResult.parse (utf8 : Bytes → Bool) (bs : Bytes) : Option SessionResult := do
  let fs ← decode bs
  if !checkStrings utf8 [1] fs then none
  else
    let st ← getSub SessionState.parse 2 fs
    let pi ← getSub (PIdentity.parse utf8) 4 fs
    let li ← getSub (PIdentity.parse utf8) 5 fs
    some ⟨getBytes 1 fs, st, pi, li, getBytes 6 fs, getBytes 7 fs⟩

/-- `SessionStatus` (s2a.proto:217-224). -/
structure SessionStatus where
  code : Nat
  details : Bytes
  deriving DecidableEq, Repr

/-- The fields written (table at upb-generated/proto/s2a.upb.c:163-166). -/
def SessionStatus.fields (m : SessionStatus) : List Field :=
  putNum 1 m.code ++ putBytes 2 m.details

/-- upb-generated/proto/s2a.upb.h:604. -/
def SessionStatus.serialize (m : SessionStatus) : Bytes := encode m.fields

/-- upb-generated/proto/s2a.upb.h:593. -/
def SessionStatus.parse (utf8 : Bytes → Bool) (bs : Bytes) : Option SessionStatus := do
  let fs ← decode bs
  if !checkStrings utf8 [2] fs then none
  else some ⟨getU32 1 fs, getBytes 2 fs⟩

/-- `SessionResp` (s2a.proto:226-255). -/
structure SessionResp where
  localIdentity : Option PIdentity
  outFrames : Bytes
  bytesConsumed : Nat
  result : Option SessionResult
  status : Option SessionStatus
  deriving DecidableEq, Repr

/-- The fields written (table at upb-generated/proto/s2a.upb.c:180-186). -/
def SessionResp.fields (m : SessionResp) : List Field :=
  putOpt 1 (m.localIdentity.map PIdentity.serialize) ++ putBytes 2 m.outFrames ++
    putNum 3 m.bytesConsumed ++ putOpt 4 (m.result.map SessionResult.serialize) ++
    putOpt 5 (m.status.map SessionStatus.serialize)

/-- Serialising a `SessionResp` (done by the S2A, not by the code). [src/proto/s2a.proto:226-255]
-/
def SessionResp.serialize (m : SessionResp) : Bytes := encode m.fields

/-- `s2a_proto_SessionResp_parse` (upb-generated/proto/s2a.upb.h:623). -/
def SessionResp.parse (utf8 : Bytes → Bool) (bs : Bytes) : Option SessionResp := do
  let fs ← decode bs
  let li ← getSub (PIdentity.parse utf8) 1 fs
  let r ← getSub (SessionResult.parse utf8) 4 fs
  let st ← getSub (SessionStatus.parse utf8) 5 fs
  some ⟨li, getBytes 2 fs, getU32 3 fs, r, st⟩

/-- `S2AContext` (s2a_context.proto:21-51). -/
structure PContext where
  applicationProtocol : Bytes
  tlsVersion : Nat
  ciphersuite : Nat
  peerIdentity : Option PIdentity
  localIdentity : Option PIdentity
  peerCertFingerprint : Bytes
  localCertFingerprint : Bytes
  isHandshakeResumed : Bool
  deriving DecidableEq, Repr

/-- The fields written (table at upb-generated/proto/s2a_context.upb.c:26-35). -/
def PContext.fields (m : PContext) : List Field :=
  putBytes 1 m.applicationProtocol ++ putNum 2 m.tlsVersion ++ putNum 3 m.ciphersuite ++
    putOpt 4 (m.peerIdentity.map PIdentity.serialize) ++
    putOpt 5 (m.localIdentity.map PIdentity.serialize) ++
    putBytes 6 m.peerCertFingerprint ++ putBytes 7 m.localCertFingerprint ++
    putBool 8 m.isHandshakeResumed

/-- `s2a_proto_S2AContext_serialize` (upb-generated/proto/s2a_context.upb.h:51). -/
def PContext.serialize (m : PContext) : Bytes := encode m.fields

/-- `s2a_proto_S2AContext_parse` (upb-generated/proto/s2a_context.upb.h:40). -/
def PContext.parse (utf8 : Bytes → Bool) (bs : Bytes) : Option PContext := do
  let fs ← decode bs
  if !checkStrings utf8 [1] fs then none
  else
    let pi ← getSub (PIdentity.parse utf8) 4 fs
    let li ← getSub (PIdentity.parse utf8) 5 fs
    some ⟨getBytes 1 fs, getU32 2 fs, getU32 3 fs, pi, li, getBytes 6 fs, getBytes 7 fs,
      getBool 8 fs⟩

end S2A.Proto
