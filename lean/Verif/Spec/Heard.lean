import Verif.Spec.Handshake
import Verif.Spec.Record
import Verif.Model.RecordHist
/-
What a connection has been told by its peer: the records decrypted so far, and the
handshake messages in them.
-/
namespace S2A.Spec

/-- A session ticket with a non-empty body. -/
def isTicket (m : Bytes) : Bool := m.head? == some ticketType && m.length != 4

/-- The handshake bytes of some records, read as TLS handshake messages: the complete session
tickets, the number of complete key updates, the bytes of an incomplete last message, and
whether everything was in order up to here.  Reading stops at the first message that is out
of order: of another type, with an empty body, or following a key update in the same
record. -/
structure View where
  tickets : List Bytes
  updates : Nat
  rest : Bytes
  sane : Bool

def View.start : View := ⟨[], 0, [], true⟩

def View.hear (v : View) (record : Bytes) : View :=
  if v.sane then
    let s := hsSplit (v.rest ++ record)
    { tickets := v.tickets ++ s.1.takeWhile isTicket,
      updates := v.updates + (s.1.filter fun m => m.head? == some updateType).length,
      rest := s.2,
      sane := verdict s.1 s.2 == .accept }
  else v

def view (records : List Bytes) : View := records.foldl View.hear .start

/-- The tickets that should be handed on, given the records (content, content type) received so
far: as soon as there are five, those; or those received when application data arrives
(between handshake messages).  `none` as long as neither has happened. -/
def due : View → List (Bytes × UInt8) → Option (List Bytes)
  | _, [] => none
  | v, (content, t) :: rs =>
    if t = handshakeType then
      let v := v.hear content
      if 5 ≤ v.tickets.length then some (v.tickets.take 5) else due v rs
    else if t = appDataType ∧ v.tickets ≠ [] ∧ v.rest = [] then some v.tickets
    else due v rs

/-- Among the messages of a record (complete ones `ms`, begun one `q`) the first that is not a
session ticket is of a type other than NewSessionTicket and KeyUpdate. -/
def Unexpected (ms : List Bytes) (q : Bytes) : Prop :=
  ∃ pre m post t, ms ++ [q] = pre ++ m :: post ∧ (∀ x ∈ pre, isTicket x = true) ∧
    m.head? = some t ∧ t ≠ ticketType ∧ t ≠ updateType

/-- The record `r` (after the records `pre`) completes the fifth ticket. -/
def CompletesFifth (pre : List Bytes) (r : Bytes) : Prop :=
  (view pre).tickets.length < 5 ∧ 5 ≤ (view (pre ++ [r])).tickets.length

/-- Some record that completes the fifth ticket also contains the beginning of another
ticket. -/
def FifthStraddled (hs : List Bytes) : Prop :=
  ∃ pre r, pre ++ [r] <+: hs ∧ CompletesFifth pre r ∧
    (view (pre ++ [r])).rest.head? = some ticketType

/-- The last record completes the fifth ticket and also contains the beginning of another
message. -/
def LastStraddles (hs : List Bytes) : Prop :=
  ∃ pre r, hs = pre ++ [r] ∧ CompletesFifth pre r ∧ (view hs).rest ≠ []

/-- No record ends inside a key update. -/
def UpdatesWhole (hs : List Bytes) : Prop :=
  ∀ pre, pre <+: hs → (view pre).rest.head? ≠ some updateType

end S2A.Spec

namespace S2A.Record

/-- No key update failed in the crypto library. -/
def NoFailedUpdate (evs : List Event) : Prop :=
  ∀ r, .opened r ∈ evs → r.rekey = none ∨ r.rekey = some .ok

/-- Content and content type of the record a successful decryption gave, if one did. -/
def Result.record (r : Result) : Option (Bytes × UInt8) := r.inner.bind Spec.unpad

/-- The records decrypted in some events: content and content type. -/
def heard (evs : List Event) : List (Bytes × UInt8) :=
  evs.filterMap fun
    | .opened r => r.record
    | _ => none

/-- The contents of the handshake records among them. -/
def handshakes (evs : List Event) : List Bytes :=
  (heard evs).filterMap fun x => if x.2 = Spec.handshakeType then some x.1 else none

end S2A.Record
