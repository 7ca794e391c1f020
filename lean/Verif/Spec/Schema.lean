import Verif.Spec.Wire
import Verif.Model.Proto
/-
What a message means according to the .proto files (src/proto/common.proto, src/proto/s2a.proto,
src/proto/s2a_context.proto): for every field its number, over the protobuf grammar of Spec/Wire.lean.
Nothing here says how messages are written or read.
-/
namespace S2A.Spec
open Wire (Field)
open Proto

/-- All byte strings with number `i`, in order. -/
def allBytes (i : Nat) : List Field → List Bytes
  | [] => []
  | (j, .len b) :: fs => if j = i then b :: allBytes i fs else allBytes i fs
  | _ :: fs => allBytes i fs

/-- The strings with the given numbers are valid. -/
def Strings (utf8 : Bytes → Bool) (is : List Nat) (fs : List Field) : Prop :=
  ∀ i ∈ is, ∀ b ∈ allBytes i fs, utf8 b = true

/-- A submessage that may occur: if it does several times, they are read as one. -/
def OptSub {α : Type} (P : Bytes → α → Prop) (i : Nat) (fs : List Field) : Option α → Prop
  | none => allBytes i fs = []
  | some m => allBytes i fs ≠ [] ∧ (∀ b ∈ allBytes i fs, ∃ m', P b m') ∧ P (allBytes i fs).flatten m

/-- Two lists, element by element. -/
inductive Each {α β : Type} (P : α → β → Prop) : List α → List β → Prop
  | nil : Each P [] []
  | cons {a b as bs} : P a b → Each P as bs → Each P (a :: as) (b :: bs)

/-- A sequence of varints. -/
inductive Varints : Bytes → List Nat → Prop
  | nil : Varints [] []
  | cons {v r : Bytes} {ns : List Nat} : IsVarint v → Varints r ns →
      Varints (v ++ r) (groups v % 2 ^ 64 :: ns)

/-- The elements of a repeated enum with number `i`, each 32 bits: packed or one by one. -/
inductive Enums (i : Nat) : List Field → List Nat → Prop
  | nil : Enums i [] []
  | packed {b fs ms ns} : Varints b ms → Enums i fs ns →
      Enums i ((i, .len b) :: fs) (ms.map (· % 2 ^ 32) ++ ns)
  | one {n fs ns} : Enums i fs ns → Enums i ((i, .varint n) :: fs) (n % 2 ^ 32 :: ns)
  | other {f : Field} {fs ns} : (f.1 = i → (∀ b, f.2 ≠ .len b) ∧ ∀ n, f.2 ≠ .varint n) →
      Enums i fs ns → Enums i (f :: fs) ns

/-- The last of spiffe_id = 1, hostname = 2, uid = 4 (common.proto:37-46). -/
def lastIdentity (fs : List Field) : PIdentity :=
  fs.foldl (fun i f => match f with
    | (1, .len s) => .spiffeId s
    | (2, .len s) => .hostname s
    | (4, .len s) => .uid s
    | _ => i) .unset

/-- The entries of a `map<string, string>` with number `i`: messages with key = 1 and value = 2. -/
def StringMap (utf8 : Bytes → Bool) (i : Nat) (fs : List Field) : Prop :=
  ∀ b ∈ allBytes i fs, ∃ es, WireMessage b es ∧ Strings utf8 [1, 2] es

/-- `Identity` (common.proto:36-50), with its map attributes = 3, which says nothing more. -/
def IdentityMsg (utf8 : Bytes → Bool) (bs : Bytes) (m : PIdentity) : Prop :=
  ∃ fs, WireMessage bs fs ∧ Strings utf8 [1, 2, 4] fs ∧ StringMap utf8 3 fs ∧
    m = lastIdentity fs

/-- `AuthenticationMechanism` (s2a.proto:21-32). -/
structure MechanismMsg (utf8 : Bytes → Bool) (bs : Bytes) (m : AuthMechanism) : Prop where
  fields : ∃ fs, WireMessage bs fs ∧ Strings utf8 [2] fs ∧
    OptSub (IdentityMsg utf8) 1 fs m.identity ∧ m.token = (allBytes 2 fs).getLast?

/-- `ClientSessionStartReq` (s2a.proto:34-70). -/
structure ClientStartMsg (utf8 : Bytes → Bool) (bs : Bytes) (m : ClientStart) : Prop where
  fields : ∃ fs, WireMessage bs fs ∧ Strings utf8 [1, 7] fs ∧
    m.applicationProtocols = allBytes 1 fs ∧
    m.minTlsVersion = lastNumber 2 fs % 2 ^ 32 ∧
    m.maxTlsVersion = lastNumber 3 fs % 2 ^ 32 ∧
    Enums 4 fs m.ciphersuites ∧
    Each (IdentityMsg utf8) (allBytes 5 fs) m.targetIdentities ∧
    OptSub (IdentityMsg utf8) 6 fs m.localIdentity ∧
    m.targetName = lastBytes 7 fs

/-- `ServerSessionStartReq` (s2a.proto:72-102). -/
structure ServerStartMsg (utf8 : Bytes → Bool) (bs : Bytes) (m : ServerStart) : Prop where
  fields : ∃ fs, WireMessage bs fs ∧ Strings utf8 [1] fs ∧
    m.applicationProtocols = allBytes 1 fs ∧
    m.minTlsVersion = lastNumber 2 fs % 2 ^ 32 ∧
    m.maxTlsVersion = lastNumber 3 fs % 2 ^ 32 ∧
    Enums 4 fs m.ciphersuites ∧
    Each (IdentityMsg utf8) (allBytes 5 fs) m.localIdentities ∧
    m.inBytes = lastBytes 6 fs

/-- `SessionNextReq` (s2a.proto:104-114). -/
structure NextMsg (bs : Bytes) (m : NextReq) : Prop where
  fields : ∃ fs, WireMessage bs fs ∧ m.inBytes = lastBytes 1 fs

/-- `ResumptionTicketReq` (s2a.proto:119-131). -/
structure TicketMsg (utf8 : Bytes → Bool) (bs : Bytes) (m : TicketReq) : Prop where
  fields : ∃ fs, WireMessage bs fs ∧ m.inBytes = allBytes 1 fs ∧
    m.connectionId = lastNumber 2 fs ∧ OptSub (IdentityMsg utf8) 3 fs m.localIdentity

/-- The member of the `oneof` of a `SessionReq` (s2a.proto:133-153), if there is exactly one. -/
inductive KindMsg (utf8 : Bytes → Bool) : Field → ReqKind → Prop
  | clientStart {b m} : ClientStartMsg utf8 b m → KindMsg utf8 (1, .len b) (.clientStart m)
  | serverStart {b m} : ServerStartMsg utf8 b m → KindMsg utf8 (2, .len b) (.serverStart m)
  | next {b m} : NextMsg b m → KindMsg utf8 (3, .len b) (.next m)
  | resumptionTicket {b m} : TicketMsg utf8 b m → KindMsg utf8 (4, .len b) (.resumptionTicket m)

/-- A `SessionReq` (s2a.proto:133-156): exactly one member of its `oneof`, then
auth_mechanisms = 5, and nothing else. -/
structure RequestMsg (utf8 : Bytes → Bool) (bs : Bytes) (m : SessionReq) : Prop where
  fields : ∃ k ms, WireMessage bs (k :: ms.map fun b => (5, .len b)) ∧ KindMsg utf8 k m.kind ∧
    Each (MechanismMsg utf8) ms m.authMechanisms

/-- `SessionState` (s2a.proto:158-189). -/
structure StateMsg (bs : Bytes) (m : SessionState) : Prop where
  fields : ∃ fs, WireMessage bs fs ∧
    m.tlsVersion = lastNumber 1 fs % 2 ^ 32 ∧ m.ciphersuite = lastNumber 2 fs % 2 ^ 32 ∧
    m.inSequence = lastNumber 3 fs ∧ m.outSequence = lastNumber 4 fs ∧
    m.inKey = lastBytes 5 fs ∧ m.outKey = lastBytes 6 fs ∧
    m.connectionId = lastNumber 9 fs ∧ (m.isHandshakeResumed = true ↔ lastNumber 10 fs ≠ 0)

/-- `SessionResult` (s2a.proto:191-215). -/
structure ResultMsg (utf8 : Bytes → Bool) (bs : Bytes) (m : SessionResult) : Prop where
  fields : ∃ fs, WireMessage bs fs ∧ Strings utf8 [1] fs ∧
    m.applicationProtocol = lastBytes 1 fs ∧ OptSub StateMsg 2 fs m.state ∧
    OptSub (IdentityMsg utf8) 4 fs m.peerIdentity ∧ OptSub (IdentityMsg utf8) 5 fs m.localIdentity ∧
    m.localCertFingerprint = lastBytes 6 fs ∧ m.peerCertFingerprint = lastBytes 7 fs

/-- `SessionStatus` (s2a.proto:217-224). -/
structure StatusMsg (utf8 : Bytes → Bool) (bs : Bytes) (m : SessionStatus) : Prop where
  fields : ∃ fs, WireMessage bs fs ∧ Strings utf8 [2] fs ∧
    m.code = lastNumber 1 fs % 2 ^ 32 ∧ m.details = lastBytes 2 fs

/-- `SessionResp` (s2a.proto:226-255). -/
structure ResponseMsg (utf8 : Bytes → Bool) (bs : Bytes) (m : SessionResp) : Prop where
  fields : ∃ fs, WireMessage bs fs ∧ OptSub (IdentityMsg utf8) 1 fs m.localIdentity ∧
    m.outFrames = lastBytes 2 fs ∧ m.bytesConsumed = lastNumber 3 fs % 2 ^ 32 ∧
    OptSub (ResultMsg utf8) 4 fs m.result ∧ OptSub (StatusMsg utf8) 5 fs m.status

/-- `S2AContext` (s2a_context.proto:21-51). -/
structure ContextMsg (utf8 : Bytes → Bool) (bs : Bytes) (m : PContext) : Prop where
  fields : ∃ fs, WireMessage bs fs ∧ Strings utf8 [1] fs ∧
    m.applicationProtocol = lastBytes 1 fs ∧
    m.tlsVersion = lastNumber 2 fs % 2 ^ 32 ∧ m.ciphersuite = lastNumber 3 fs % 2 ^ 32 ∧
    OptSub (IdentityMsg utf8) 4 fs m.peerIdentity ∧ OptSub (IdentityMsg utf8) 5 fs m.localIdentity ∧
    m.peerCertFingerprint = lastBytes 6 fs ∧ m.localCertFingerprint = lastBytes 7 fs ∧
    (m.isHandshakeResumed = true ↔ lastNumber 8 fs ≠ 0)

end S2A.Spec
