import Verif.Model.TicketSender
/-
The memory behind a request prepared by src/record_protocol/s2a_upb_ticket_sender.cc: the
function stores pointers into the strings it is given, and they are followed when the request is
serialised.
-/
namespace S2A.Views
open S2A.Proto S2A.Util

/-- The buffer of a string, by a name. [e.g. src/record_protocol/s2a_upb_ticket_sender.cc:75] -/
abbrev Block := Nat

/-- Memory: what each buffer contains, `none` if it has been freed (or not been allocated).  A
`std::string` keeps a NUL after its characters.
[e.g. src/record_protocol/s2a_upb_ticket_sender.cc:59, 75] -/
abbrev Mem := Block → Option Bytes

/-- Allocating, changing or freeing a buffer. [no counterpart in /repo: what the caller does] -/
def Mem.set (m : Mem) (b : Block) (o : Option Bytes) : Mem := fun c => if c = b then o else m c

/-- `upb_strview`: `own` is a view of memory of the arena of the request, which lives as long as
the request and is not changed; `of` is one of a buffer of the caller.
[src/record_protocol/s2a_upb_ticket_sender.cc:59, 63, 67, 75] -/
inductive View
  | own (d : Bytes)
  | of (b : Block) (size : Nat)
  deriving DecidableEq, Repr

/-- Reading what a view refers to, which the protobuf library does when it serialises.  A view
of no bytes is not followed. [src/proto/upb-generated/proto/s2a.upb.h:361] -/
def View.read (m : Mem) : View → Exec Bytes
  | .own d => .ok d
  | .of b n =>
    if n = 0 then .ok []
    else match m b with
      | none => .error .useAfterFree
      | some d => if n ≤ d.length then .ok (d.take n) else .error .outOfBounds

/-- `upb_strview_makez(s.c_str())`: the length is found by looking for the NUL.
[src/record_protocol/s2a_upb_ticket_sender.cc:59, 63, 67] -/
def makez (m : Mem) (b : Block) : Exec View :=
  match m b with
  | none => .error .useAfterFree
  | some d =>
    if d.all (· ≠ 0) then .error .outOfBounds else .ok (.of b (d.takeWhile (· ≠ 0)).length)

/-- `upb_strview_make(ticket->data(), ticket->size())` for a ticket that may be null; the size of
a string does not count the NUL after its characters.
[src/record_protocol/s2a_upb_ticket_sender.cc:74-75] -/
def makeTicket (m : Mem) : Option Block → Exec View
  | none => .error .assertFail
  | some b => match m b with
    | none => .error .useAfterFree
    | some d => .ok (.of b (d.length - 1))

/-- `s2a_proto_Identity` with the strings not read yet. [src/proto/common.proto:36-50] -/
inductive IdV
  | unset
  | spiffeId (v : View)
  | hostname (v : View)
  | uid (v : View)
  deriving DecidableEq, Repr

/-- `s2a_proto_ResumptionTicketReq` with the strings not read yet. [src/proto/s2a.proto:119-131] -/
structure TicketV where
  inBytes : List View
  connectionId : Nat
  localIdentity : Option IdV
  deriving DecidableEq, Repr

/-- The kind of a request: of the other kinds all strings are taken to be memory of the arena.
[src/proto/s2a.proto:133-156] -/
inductive KindV
  | ticket (t : TicketV)
  | other (k : ReqKind)
  deriving DecidableEq, Repr

/-- `s2a_proto_SessionReq` with the strings not read yet. [src/proto/s2a.proto:133-156] -/
structure ReqV where
  kind : KindV
  authMechanisms : List AuthMechanism
  deriving DecidableEq, Repr

/-- An identity whose string is memory of the arena. [src/proto/common.proto:36-50] -/
def IdV.ofP : PIdentity → IdV
  | .unset => .unset
  | .spiffeId s => .spiffeId (.own s)
  | .hostname s => .hostname (.own s)
  | .uid s => .uid (.own s)

/-- A request all of whose strings are memory of its arena, e.g. one that was parsed, or a new
one. [src/proto/upb-generated/proto/s2a.upb.h:347-360] -/
def ReqV.ofReq (r : SessionReq) : ReqV :=
  ⟨match r.kind with
    | .resumptionTicket t => .ticket ⟨t.inBytes.map .own, t.connectionId, t.localIdentity.map .ofP⟩
    | k => .other k, r.authMechanisms⟩

/-- Reading the string of an identity. [src/proto/upb-generated/proto/s2a.upb.h:361] -/
def IdV.read (m : Mem) : IdV → Exec PIdentity
  | .unset => .ok .unset
  | .spiffeId v => do return .spiffeId (← v.read m)
  | .hostname v => do return .hostname (← v.read m)
  | .uid v => do return .uid (← v.read m)

/-- Reading the identity, if there is one. [src/proto/upb-generated/proto/s2a.upb.h:361] -/
def readId (m : Mem) : Option IdV → Exec (Option PIdentity)
  | none => .ok none
  | some i => do return some (← i.read m)

/-- Reading all strings of a request. [src/proto/upb-generated/proto/s2a.upb.h:361] -/
def ReqV.read (m : Mem) (r : ReqV) : Exec SessionReq :=
  match r.kind with
  | .other k => .ok ⟨k, r.authMechanisms⟩
  | .ticket t => do
    let ts ← t.inBytes.mapM (View.read m)
    let i ← readId m t.localIdentity
    .ok ⟨.resumptionTicket ⟨ts, t.connectionId, i⟩, r.authMechanisms⟩

/-- The identity a caller passes: its type and the buffer of its string.
[include/s2a_options.h:46-85] -/
structure IdObj where
  type : IdentityType
  block : Block
  deriving DecidableEq, Repr

/-- The `switch` over the type of the identity (s2a_upb_ticket_sender.cc:56-71): `none` for an
unrecognized type. -/
def idView (m : Mem) (i : IdObj) : Exec (Option IdV) :=
  match i.type with
  | .spiffeId => do return some (.spiffeId (← makez m i.block))
  | .hostname => do return some (.hostname (← makez m i.block))
  | .uid => do return some (.uid (← makez m i.block))
  | .none => .ok none

/-- `PrepareResumptionTicketReq` (s2a_upb_ticket_sender.cc:32-80) with a non-null arena and
request: the result and the request afterwards.  `none` is the null pointer, as the vector of
tickets and as a ticket. -/
def prepare (m : Mem) (connectionId : UInt64) (i : IdObj) (tickets : Option (List (Option Block)))
    (req : ReqV) : Exec (Bool × ReqV) :=
  match tickets with
  | none => .ok (false, req)
  | some ts => do
    let t : TicketV := match req.kind with
      | .ticket t => t
      | .other _ => ⟨[], 0, none⟩
    let t := { t with connectionId := connectionId.toNat }
    let t := { t with localIdentity := some (t.localIdentity.getD .unset) }
    match ← idView m i with
    | none => .ok (false, { req with kind := .ticket t })
    | some iv =>
      let vs ← ts.mapM (makeTicket m)
      let t := { t with localIdentity := some iv, inBytes := t.inBytes ++ vs }
      .ok (true, { req with kind := .ticket t })

/-- What happens to a request and the memory around it: a call of `PrepareResumptionTicketReq`,
the caller allocating, changing or freeing a buffer, or the request being serialised.
[src/record_protocol/s2a_upb_ticket_sender.cc:32-80; the other two are the caller's] -/
inductive Ev
  | prepare (connectionId : UInt64) (i : IdObj) (tickets : Option (List (Option Block)))
  | touch (b : Block) (o : Option Bytes)
  | serialize

/-- What an event gives: the result of the call, or the serialised request.
[src/record_protocol/s2a_upb_ticket_sender.cc:32] -/
inductive Out
  | prepared (r : Bool)
  | nothing
  | bytes (d : Bytes)
  deriving DecidableEq, Repr

/-- One event. [src/record_protocol/s2a_upb_ticket_sender.cc:32-80] -/
def step (m : Mem) (r : ReqV) : Ev → Exec (Mem × ReqV × Out)
  | .prepare c i ts => do
    let (b, r) ← prepare m c i ts r
    .ok (m, r, .prepared b)
  | .touch b o => .ok (m.set b o, r, .nothing)
  | .serialize => do
    let q ← r.read m
    .ok (m, r, .bytes q.serialize)

/-- A history of events. [src/record_protocol/s2a_upb_ticket_sender.cc:32-80] -/
def run (m : Mem) (r : ReqV) : List Ev → Exec (List Out)
  | [] => .ok []
  | e :: es => do
    let (m, r, o) ← step m r e
    let os ← run m r es
    .ok (o :: os)

end S2A.Views
