import Verif.Spec.Reader
import Verif.Spec.Frame
/-
A reference machine: one connection on byte strings, without buffers, cursors, fragments and
memory.  For every call it says what the caller sees, in every state that a connection can be in.
-/
namespace S2A.Spec
open Record (Code RecordType)

/-! ## Handshake messages -/

/-- A message that was read to its end but not put away: a session ticket (with an empty body), a
key update (with an empty body, or not the last message of its record), or one of another type. -/
inductive Kind
  | ticket | update | other
  deriving DecidableEq, Repr

/-- What a connection makes of the handshake bytes so far: the same as `Reader`, but with the kind
of the message that was not put away. -/
inductive Ear
  | inside (got : Bytes)
  | foreign (got : Bytes)
  | stale (kind : Kind) (n : Nat)
  deriving DecidableEq, Repr

/-- Is the connection waiting for more handshake bytes? -/
def Ear.busy : Ear → Bool
  | .inside got => !got.isEmpty
  | .foreign _ => true
  | .stale _ _ => true

/-- Is it a ticket that the connection is inside of? -/
def Ear.inTicket : Ear → Bool
  | .inside got => got.head? == some ticketType
  | .foreign _ => false
  | .stale kind _ => kind == .ticket

/-- What one handshake record amounted to: was it accepted, was a byte of a key update read, was a
byte of a ticket read, and which tickets got complete. -/
structure Said where
  accepted : Bool := true
  update : Bool := false
  ticket : Bool := false
  tickets : List Bytes := []
  deriving DecidableEq, Repr

/-- A message of another type goes on with `record`: only the part it is in (the header, or the
body) is read, and the rest of the record is skipped. -/
def Ear.skip (got record : Bytes) : Ear :=
  let got' := got ++ record.take (missing got)
  if 4 ≤ got'.length ∧ got'.length = 4 + bodyLength got' then .stale .other 0 else .foreign got'

/-- After a message that was not put away `more` bytes arrive: they are taken for more of that
message as long as they are fewer than the bytes of a header; after that, undefined behaviour. -/
def Ear.wait (kind : Kind) (n : Nat) (more : Bytes) (s : Said) : Option (Ear × Said) :=
  if more = [] then some (.stale kind n, s)
  else if n + more.length < 4 then
    some (.stale kind (n + more.length), match kind with
      | .ticket => { s with ticket := true }
      | .update => { s with update := true }
      | .other => { s with accepted := false })
  else none

/-- Reading the complete messages `ms` and the incomplete one `q`, after `s`. -/
def Ear.read : List Bytes → Bytes → Said → Option (Ear × Said)
  | [], q, s =>
    if q = [] then some (.inside [], s)
    else if q.head? = some ticketType then some (.inside q, { s with ticket := true })
    else if q.head? = some updateType then some (.inside q, { s with update := true })
    else some (.skip [] q, { s with accepted := false })
  | m :: ms, q, s =>
    if m.head? = some ticketType then
      if m.length = 4 then Ear.wait .ticket 0 (ms.flatten ++ q) { s with ticket := true }
      else Ear.read ms q { s with ticket := true, tickets := s.tickets ++ [m] }
    else if m.head? = some updateType then
      if m.length = 4 then Ear.wait .update 0 (ms.flatten ++ q) { s with update := true }
      else if ms = [] ∧ q = [] then some (.inside [], { s with update := true })
      else some (.stale .update 0, { s with accepted := false })
    else some (.skip [] m, { s with accepted := false })

/-- A handshake record arrives. -/
def Ear.hear (e : Ear) (record : Bytes) : Option (Ear × Said) :=
  if record = [] then some (e, {})
  else match e with
    | .inside got => Ear.read (hsSplit (got ++ record)).1 (hsSplit (got ++ record)).2 {}
    | .foreign got => some (.skip got record, { accepted := false })
    | .stale kind n => Ear.wait kind n record {}

/-! ## The connection -/

/-- How far things are with the tickets: none was seen, some were seen, or they were handed on. -/
inductive Stage
  | fresh | collecting | settled
  deriving DecidableEq, Repr

/-- One connection: its two directions, the handshake bytes, the tickets that are complete, how far
things are with them, whether application data must wait for the end of a message, whether the
peer has closed, the tickets that were handed on, and whether a direction is dead (after a failed
key update). -/
structure Machine where
  out : Dir
  inp : Dir
  ear : Ear
  kept : List Bytes
  stage : Stage
  waiting : Bool
  closed : Bool
  sent : List (List Bytes)
  outDead : Bool := false
  inDead : Bool := false
  deriving DecidableEq, Repr

namespace Machine

/-- A new connection. -/
def start (out inp : Dir) : Machine :=
  ⟨out, inp, .inside [], [], .fresh, false, false, [], false, false⟩

/-- The tickets are handed on, unless another one has begun. -/
def settle (m : Machine) : Machine :=
  { m with stage := .settled, sent := if m.ear.inTicket then m.sent else m.sent ++ [m.kept] }

/-- What the machine does with the content of a handshake record; `none` is undefined behaviour. -/
def hear (L : Lib) (m : Machine) (content : Bytes) : Option (Machine × Code × Bytes) :=
  match m.ear.hear content with
  | none => none
  | some (ear, s) =>
    let m := { m with ear := ear, kept := (m.kept ++ s.tickets).take 5 }
    if !s.accepted then some (m, .internalError, [])
    else
      let m := { m with waiting := ear.busy, inp := if s.update then m.inp.update L else m.inp }
      if s.ticket ∧ m.stage ≠ .settled then
        if 5 ≤ m.kept.length then some ({ m.settle with waiting := false }, .ok, [])
        else some ({ m with stage := .collecting }, .ok, [])
      else some (m, .ok, [])

/-- What the machine does with the plaintext of a record. -/
def plaintext (L : Lib) (m : Machine) (inner : Bytes) : Option (Machine × Code × Bytes) :=
  match unpad inner with
  | none => some (m, .invalidRecord, [])
  | some (content, t) =>
    if t = alertType then
      if content.length < 2 then some (m, .invalidRecord, [])
      else if content[1]? = some 0 then some ({ m with closed := true }, .alertCloseNotify, [])
      else some (m, .alertOther, [])
    else if t = handshakeType then m.hear L content
    else if t = appDataType then
      if m.waiting then some (m, .invalidRecord, [])
      else if m.stage = .collecting then some (m.settle, .ok, content)
      else some (m, .ok, content)
    else some (m, .invalidRecord, [])

/-- A record arrives, as header and payload, and there is room for `room` bytes of plaintext. -/
def receive (L : Lib) (m : Machine) (header payload : Bytes) (room : Nat) :
    Option (Machine × Code × Bytes) :=
  let n := header.length + payload.length
  if m.closed then some (m, .alertCloseNotify, [])
  else if n < 22 then some (m, .failedPrecondition, [])
  else if 16406 < n then some (m, .alertRecordOverflow, [])
  else if header ≠ recordHeader payload.length then some (m, .failedPrecondition, [])
  else if m.inDead ∨ m.inp.seq = 2 ^ 64 then some (m, .internalError, [])
  else
    let m' := { m with inp := m.inp.next }
    if room + 16 < payload.length then some (m', .internalError, [])
    else match m.inp.open L header payload with
      | none => some (m', .internalError, [])
      | some inner => m'.plaintext L inner

/-- A record is made of `content`, and there is room for `room` bytes. -/
def send (L : Lib) (m : Machine) (type : RecordType) (content : Bytes) (room : Nat) :
    Machine × Code × Bytes :=
  if 16384 < content.length ∨ room < content.length + 22 then (m, .failedPrecondition, [])
  else match contentType type with
    | none => (m, .failedPrecondition, [])
    | some t =>
      if m.outDead ∨ m.out.seq = 2 ^ 64 then (m, .internalError, [])
      else ({ m with out := m.out.next }, .ok, m.out.protect L (innerPlaintext content t 0))

/-- The outbound key is updated. -/
def rekey (L : Lib) (m : Machine) : Machine := { m with out := m.out.update L }

end Machine

/-! ## Histories of one crypter -/

/-- A call, with the bytes given to it and the space for the result. -/
inductive Call
  | send (type : RecordType) (content : Bytes) (room : Nat)
  | receive (header payload : Bytes) (room : Nat)
  | rekey
  deriving DecidableEq, Repr

/-- What the caller sees: a status and some bytes. -/
abbrev Answer := Code × Bytes

/-- Does a record get as far as being decrypted? -/
def Machine.tries (m : Machine) (header payload : Bytes) : Prop :=
  m.closed = false ∧ 22 ≤ header.length + payload.length ∧
    header.length + payload.length ≤ 16406 ∧ header = recordHeader payload.length ∧
    m.inDead = false ∧ m.inp.seq < 2 ^ 64

/-- The state after a handshake record whose key update fails: the bytes are read, but neither is
the key updated nor are the tickets looked after, and the direction is dead. -/
def Machine.poisoned (m : Machine) (content : Bytes) (m' : Machine) : Prop :=
  ∃ ear s, m.ear.hear content = some (ear, s) ∧ s.accepted = true ∧ s.update = true ∧
    m' = { m with ear := ear, kept := (m.kept ++ s.tickets).take 5, waiting := ear.busy,
                  inDead := true }

/-- What a call may do instead if the cryptographic library fails in it: it answers with an internal
error and no bytes, and leaves the state `m'`.  A record that was going to be made or decrypted
counts, but there is nothing to show for it; a failing key update makes the direction dead. -/
def Machine.Lapse (L : Lib) (m : Machine) : Call → Machine → Prop
  | .send type content room, m' =>
    (m.send L type content room).2.1 = .ok ∧ m' = { m with out := m.out.next }
  | .receive header payload room, m' =>
    m.tries header payload ∧
      (m' = { m with inp := m.inp.next } ∨
       ∃ inner content, payload.length ≤ room + 16 ∧ m.inp.open L header payload = some inner ∧
        unpad inner = some (content, handshakeType) ∧
        Machine.poisoned { m with inp := m.inp.next } content m')
  | .rekey, m' => m' = { m with outDead := true }

/-- One call. -/
def Machine.step (L : Lib) (m : Machine) : Call → Option (Machine × Answer)
  | .send type content room => some (m.send L type content room)
  | .receive header payload room => m.receive L header payload room
  | .rekey => some (m.rekey L, .ok, [])

/-- A history of calls; `none` if one of them is undefined behaviour. -/
def Machine.run (L : Lib) : Machine → List Call → Option (Machine × List Answer)
  | m, [] => some (m, [])
  | m, x :: xs =>
    match m.step L x with
    | none => none
    | some (m, a) =>
      match m.run L xs with
      | none => none
      | some (m, as) => some (m, a :: as)

/-- The histories of calls if the library may fail: each call comes with a flag that says whether
it may fail in that call. -/
inductive Machine.May (L : Lib) : Machine → List (Call × Bool) → Machine → List Answer → Prop
  | nil (m) : Machine.May L m [] m []
  | step {m m1 m2 x b xs a as} : m.step L x = some (m1, a) → Machine.May L m1 xs m2 as →
      Machine.May L m ((x, b) :: xs) m2 (a :: as)
  | lapse {m m1 m2 x xs as} : m.Lapse L x m1 → Machine.May L m1 xs m2 as →
      Machine.May L m ((x, true) :: xs) m2 ((.internalError, []) :: as)

/-! ## The frame protector -/

/-- The status of a frame protector call for a code of the crypter. -/
def statusOf : Code → StatusCode
  | .ok => .ok
  | .failedPrecondition => .failedPrecondition
  | .invalidArgument => .invalidArgument
  | .unknown => .unknown
  | .unimplemented => .unimplemented
  | _ => .internal

/-- The fragments of a message become records, as long as that succeeds. -/
def Machine.sendAll (L : Lib) : Machine → List Bytes → Nat → Machine × StatusCode × Bytes
  | m, [], _ => (m, .ok, [])
  | m, x :: xs, room =>
    match m.send L .applicationData x room with
    | (m, .ok, w) =>
      match Machine.sendAll L m xs (room - w.length) with
      | (m, .ok, ws) => (m, .ok, w ++ ws)
      | (m, st, _) => (m, st, [])
    | (m, code, _) => (m, statusOf code, [])

/-- `Protect` of a message, with room for `room` bytes. -/
def Machine.protect (L : Lib) (m : Machine) (b : Bytes) (room : Nat) :
    Machine × StatusCode × Bytes :=
  m.sendAll L (fragments b) room

/-- `Unprotect` of some bytes: the contents of the records, one for each. -/
def Machine.unprotectAll (L : Lib) : (fuel : Nat) → Machine → Bytes →
    Option (Machine × StatusCode × List Bytes)
  | 0, m, _ => some (m, .ok, [])
  | fuel + 1, m, b =>
    if b.length < 22 then some (m, .ok, [])
    else match firstRecord b with
      | none => some (m, .failedPrecondition, [])
      | some (header, payload, rest) =>
        match m.receive L header payload payload.length with
        | none => none
        | some (m, .ok, x) =>
          match Machine.unprotectAll L fuel m rest with
          | none => none
          | some (m, .ok, xs) => some (m, .ok, x :: xs)
          | some (m, st, _) => some (m, st, [])
        | some (m, code, _) => some (m, statusOf code, [])

/-- `Unprotect` of some bytes: too few of them are refused. -/
def Machine.unprotect (L : Lib) (m : Machine) (b : Bytes) :
    Option (Machine × StatusCode × List Bytes) :=
  if b.length < 22 then some (m, .failedPrecondition, [])
  else m.unprotectAll L b.length b

/-- `Unprotect` of the first record in some bytes, with room for `room` bytes of plaintext. -/
def Machine.unprotectFirst (L : Lib) (m : Machine) (b : Bytes) (room : Nat) :
    Option (Machine × StatusCode × List Bytes) :=
  if b.length < 22 then some (m, .failedPrecondition, [])
  else match firstRecord b with
    | none => some (m, .failedPrecondition, [])
    | some (header, payload, _) =>
      match m.receive L header payload room with
      | none => none
      | some (m, .ok, x) => some (m, .ok, [x])
      | some (m, code, _) => some (m, statusOf code, [])

/-- A call on a frame protector, with the bytes given to it and the space for the result. -/
inductive FrameCall
  | protect (b : Bytes)
  | protectInto (b : Bytes) (room : Nat)
  | unprotect (b : Bytes)
  | unprotectInto (b : Bytes) (room : Nat)
  deriving DecidableEq, Repr

/-- What the caller sees: a status and the byte strings handed out. -/
abbrev FrameAnswer := StatusCode × List Bytes

/-- The byte strings that a `Protect` hands out. -/
def handOut : Machine × StatusCode × Bytes → Machine × FrameAnswer
  | (m, .ok, w) => (m, .ok, [w])
  | (m, st, _) => (m, st, [])

/-- One call. -/
def Machine.frameStep (L : Lib) (m : Machine) : FrameCall → Option (Machine × FrameAnswer)
  | .protect b => some (handOut (m.protect L b (b.length + 22 * recordCount b.length)))
  | .protectInto b room => some (handOut (m.protect L b room))
  | .unprotect b => m.unprotect L b
  | .unprotectInto b room => m.unprotectFirst L b room

/-- A history of calls; `none` if one of them is undefined behaviour. -/
def Machine.frameRun (L : Lib) : Machine → List FrameCall → Option (Machine × List FrameAnswer)
  | m, [] => some (m, [])
  | m, x :: xs =>
    match m.frameStep L x with
    | none => none
    | some (m, a) =>
      match m.frameRun L xs with
      | none => none
      | some (m, as) => some (m, a :: as)

/-- The library fails while one of the fragments of a message is made into a record. -/
inductive Machine.SendFails (L : Lib) : Machine → List Bytes → Nat → Machine → Prop
  | here {m m' x xs room} : m.Lapse L (.send .applicationData x room) m' →
      Machine.SendFails L m (x :: xs) room m'
  | later {m m1 m' x xs room w} : m.send L .applicationData x room = (m1, .ok, w) →
      Machine.SendFails L m1 xs (room - w.length) m' → Machine.SendFails L m (x :: xs) room m'

/-- The library fails in one of the records at the begin of some bytes. -/
inductive Machine.ReceiveFails (L : Lib) : Machine → Bytes → Machine → Prop
  | here {m m' b header payload rest} : 22 ≤ b.length →
      firstRecord b = some (header, payload, rest) →
      m.Lapse L (.receive header payload payload.length) m' → Machine.ReceiveFails L m b m'
  | later {m m1 m' b header payload rest x} : 22 ≤ b.length →
      firstRecord b = some (header, payload, rest) →
      m.receive L header payload payload.length = some (m1, .ok, x) →
      Machine.ReceiveFails L m1 rest m' → Machine.ReceiveFails L m b m'

/-- What a call may do instead if the library fails in it: it answers with an internal error and
nothing else, and leaves the state `m'`. -/
def Machine.FrameLapse (L : Lib) (m : Machine) : FrameCall → Machine → Prop
  | .protect b, m' => m.SendFails L (fragments b) (b.length + 22 * recordCount b.length) m'
  | .protectInto b room, m' => m.SendFails L (fragments b) room m'
  | .unprotect b, m' => m.ReceiveFails L b m'
  | .unprotectInto b room, m' => 22 ≤ b.length ∧ ∃ header payload rest,
      firstRecord b = some (header, payload, rest) ∧ m.Lapse L (.receive header payload room) m'

/-- The histories of calls if the library may fail: each call comes with a flag that says whether
it may fail in that call. -/
inductive Machine.FrameMay (L : Lib) :
    Machine → List (FrameCall × Bool) → Machine → List FrameAnswer → Prop
  | nil (m) : Machine.FrameMay L m [] m []
  | step {m m1 m2 x b xs a as} : m.frameStep L x = some (m1, a) →
      Machine.FrameMay L m1 xs m2 as → Machine.FrameMay L m ((x, b) :: xs) m2 (a :: as)
  | lapse {m m1 m2 x xs as} : m.FrameLapse L x m1 → Machine.FrameMay L m1 xs m2 as →
      Machine.FrameMay L m ((x, true) :: xs) m2 ((.internal, []) :: as)

end S2A.Spec
