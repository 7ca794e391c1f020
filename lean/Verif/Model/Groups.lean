import Verif.Model.Context
/-
The decoder of upb once more, with what Model/Wire.lean leaves out: groups, which are skipped, the
limit on nesting, and the limits of 32 bits on tags and lengths.  upb itself is not part of /repo
(WORKSPACE:28-31 names its version); this file records what its decoder is taken to do.
-/
namespace S2A.Upb
open Wire Proto Util

/-- A varint of at most ten bytes, cut to 64 bits. [upb library, called by
src/proto/upb-generated/proto/s2a.upb.h:623] -/
def readNum (bs : Bytes) : Option (Nat × Bytes) := do
  let (n, bs) ← readVarint 10 bs
  some (n % 2 ^ 64, bs)

/-- A tag or a length: a number of more than 32 bits is refused. [upb library, called by
src/proto/upb-generated/proto/s2a.upb.h:623] -/
def readNum32 (bs : Bytes) : Option (Nat × Bytes) := do
  let (n, bs) ← readNum bs
  if n < 2 ^ 32 then some (n, bs) else none

/-- The value after a tag with wire type `w`; lengths of 2^31 - 1 and more are refused. [upb
library, called by src/proto/upb-generated/proto/s2a.upb.h:623] -/
def readValue (w : Nat) (bs : Bytes) : Option (Val × Bytes) :=
  match w with
  | 0 => do
    let (n, bs) ← readNum bs
    some (.varint n, bs)
  | 1 => do
    let (b, bs) ← readBytes 8 bs
    some (.fixed64 b, bs)
  | 2 => do
    let (n, bs) ← readNum32 bs
    if n < 2 ^ 31 - 1 then do
      let (b, bs) ← readBytes n bs
      some (.len b, bs)
    else none
  | 5 => do
    let (b, bs) ← readBytes 4 bs
    some (.fixed32 b, bs)
  | _ => none

/-- The fields up to the end of the input, or up to a tag that ends a group: then also the number
in that tag and what follows it.  A group inside is read and dropped; it must end with its own
number.  `depth` is how many more levels may be opened.  Every field has at least one byte, so
`fuel` (the number of bytes) is never used up.  No message here has a group as a field. [upb
library, called by src/proto/upb-generated/proto/s2a.upb.h:623] -/
def body : (fuel depth : Nat) → Bytes → Option (List Field × Option (Nat × Bytes))
  | _, _, [] => some ([], none)
  | 0, _, _ :: _ => none
  | fuel + 1, depth, bs =>
    match readNum32 bs with
    | none => none
    | some (tag, bs) =>
      if tag / 8 = 0 then none
      else if tag % 8 = 4 then some ([], some (tag / 8, bs))
      else if tag % 8 = 3 then
        match depth with
        | 0 => none
        | d + 1 =>
          match body fuel d bs with
          | some (_, some (j, rest)) => if j = tag / 8 then body fuel (d + 1) rest else none
          | _ => none
      else match readValue (tag % 8) bs with
        | none => none
        | some (v, bs) => (body fuel depth bs).map fun r => ((tag / 8, v) :: r.1, r.2)

/-- The fields of a message, without the groups in it; the end of a group that was not opened is
refused. [upb library, called by src/proto/upb-generated/proto/s2a.upb.h:623] -/
def decode (depth : Nat) (bs : Bytes) : Option (List Field) :=
  match body bs.length depth bs with
  | some (fs, none) => some fs
  | _ => none

/-- upb allows 64 levels below a message. [upb library, called by
src/proto/upb-generated/proto/s2a.upb.h:623] -/
def maxDepth : Nat := 64

/-! ### The messages, for any decoder `D` of fields -/

section
variable (D : Nat → Bytes → Option (List Field)) (utf8 : Bytes → Bool)

/-- A message inside another one takes a level. [upb library, called by
src/proto/upb-generated/proto/s2a.upb.h:623] -/
def sub {α : Type} (p : Nat → Bytes → Option α) : Nat → Bytes → Option α
  | 0, _ => none
  | d + 1, bs => p d bs

/-- An entry of the map of an identity: its strings are checked.
[src/proto/upb-generated/proto/common.upb.c:38-41] -/
def entryOk (d : Nat) (bs : Bytes) : Option Unit := do
  let es ← D d bs
  if checkStrings utf8 [1, 2] es then some () else none

/-- An identity. [src/proto/upb-generated/proto/common.upb.h:52] -/
def identity (d : Nat) (bs : Bytes) : Option PIdentity := do
  let fs ← D d bs
  if !checkStrings utf8 [1, 2, 4] fs then none
  else if !(lens 3 fs).all (fun b => (sub (entryOk D utf8) d b).isSome) then none
  else some ((fs.filterMap PIdentity.ofField).getLast?.getD .unset)

/-- The state of a session. [src/proto/upb-generated/proto/s2a.upb.h:452] -/
def sessionState (d : Nat) (bs : Bytes) : Option SessionState := do
  let fs ← D d bs
  some ⟨getU32 1 fs, getU32 2 fs, getU64 3 fs, getU64 4 fs, getBytes 5 fs, getBytes 6 fs,
    getU64 9 fs, getBool 10 fs⟩

/-- The result of a session. [src/proto/upb-generated/proto/s2a.upb.h:514] -/
def sessionResult (d : Nat) (bs : Bytes) : Option SessionResult := do
  let fs ← D d bs
  if !checkStrings utf8 [1] fs then none
  else
    let st ← getSub (sub (sessionState D) d) 2 fs
    let pi ← getSub (sub (identity D utf8) d) 4 fs
    let li ← getSub (sub (identity D utf8) d) 5 fs
    some ⟨getBytes 1 fs, st, pi, li, getBytes 6 fs, getBytes 7 fs⟩

/-- The status of a session. [src/proto/upb-generated/proto/s2a.upb.h:593] -/
def sessionStatus (d : Nat) (bs : Bytes) : Option SessionStatus := do
  let fs ← D d bs
  if !checkStrings utf8 [2] fs then none
  else some ⟨getU32 1 fs, getBytes 2 fs⟩

/-- A response of the S2A. [src/proto/upb-generated/proto/s2a.upb.h:623] -/
def sessionResp (d : Nat) (bs : Bytes) : Option SessionResp := do
  let fs ← D d bs
  let li ← getSub (sub (identity D utf8) d) 1 fs
  let r ← getSub (sub (sessionResult D utf8) d) 4 fs
  let st ← getSub (sub (sessionStatus D utf8) d) 5 fs
  some ⟨li, getBytes 2 fs, getU32 3 fs, r, st⟩

/-- A serialised context. [src/proto/upb-generated/proto/s2a_context.upb.h:40] -/
def context (d : Nat) (bs : Bytes) : Option PContext := do
  let fs ← D d bs
  if !checkStrings utf8 [1] fs then none
  else
    let pi ← getSub (sub (identity D utf8) d) 4 fs
    let li ← getSub (sub (identity D utf8) d) 5 fs
    some ⟨getBytes 1 fs, getU32 2 fs, getU32 3 fs, pi, li, getBytes 6 fs, getBytes 7 fs,
      getBool 8 fs⟩

end

/-- `s2a_proto_SessionResp_parse`. [src/proto/upb-generated/proto/s2a.upb.h:623] -/
def parseResp (utf8 : Bytes → Bool) : Bytes → Option SessionResp := sessionResp decode utf8 maxDepth

/-- `s2a_proto_S2AContext_parse`. [src/proto/upb-generated/proto/s2a_context.upb.h:40] -/
def parseContext (utf8 : Bytes → Bool) : Bytes → Option PContext := context decode utf8 maxDepth

/-- What is made of a parsed context. [src/handshaker/s2a_context.cc:175-210] -/
def contextOf : Option PContext → Except StatusCode Context
  | none => .error .internal
  | some m => do
    let v ← tlsVersionFromProto m.tlsVersion
    let cs ← ciphersuiteFromProto m.ciphersuite
    .ok { applicationProtocol := m.applicationProtocol
          tlsVersion := v
          ciphersuite := cs
          peerIdentity := identityFromProto m.peerIdentity
          localIdentity := identityFromProto m.localIdentity
          peerCertFingerprint := m.peerCertFingerprint
          localCertFingerprint := m.localCertFingerprint
          isHandshakeResumed := m.isHandshakeResumed }

/-- `GetS2AContextFromSerializedContext`. [src/handshaker/s2a_context.cc:161-211] -/
def deserialize (utf8 : Bytes → Bool) (bs : Bytes) : Except StatusCode Context :=
  contextOf (parseContext utf8 bs)

end S2A.Upb
