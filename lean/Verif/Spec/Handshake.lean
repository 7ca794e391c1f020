import Verif.Model.Base
/-
TLS 1.3 handshake messages (RFC 8446 section 4): a type byte, a 24-bit length in network
order, and the body.
-/
namespace S2A.Spec

/-- A handshake message on the wire. -/
def hsMessage (type : UInt8) (body : Bytes) : Bytes :=
  type :: UInt8.ofNat (body.length / 65536) :: UInt8.ofNat (body.length / 256) ::
    UInt8.ofNat body.length :: body

/-- The 24-bit length in a header. -/
def len24 (a b c : UInt8) : Nat := a.toNat * 65536 + b.toNat * 256 + c.toNat

/-- Cut a byte stream into its complete handshake messages (with their headers) and the
bytes of an incomplete last one. -/
def hsSplit : Bytes → List Bytes × Bytes
  | t :: a :: b :: c :: rest =>
    if len24 a b c ≤ rest.length then
      let r := hsSplit (rest.drop (len24 a b c))
      ((t :: a :: b :: c :: rest.take (len24 a b c)) :: r.1, r.2)
    else ([], t :: a :: b :: c :: rest)
  | s => ([], s)
termination_by s => s.length
decreasing_by simp; omega

/-- NewSessionTicket and KeyUpdate (RFC 8446 appendix B.3). -/
def ticketType : UInt8 := 4
def updateType : UInt8 := 24

/-- The session tickets among some messages. -/
def tickets (ms : List Bytes) : List Bytes := ms.filter fun m => m.head? == some ticketType

/-- Is there a key update among the messages, complete (`ms`) or begun (`q`)? -/
def mentionsType (t : UInt8) (ms : List Bytes) (q : Bytes) : Bool :=
  (ms ++ [q]).any fun m => m.head? == some t

/-- What becomes of a record: accepted, refused, or it contains a message with an empty body
(which neither NewSessionTicket nor KeyUpdate can have). -/
inductive Verdict
  | accept | refuse | emptyBody
  deriving DecidableEq, Repr

/-- Verdict on a record that leads to the complete messages `ms` and the incomplete rest `q`:
only tickets and key updates are allowed, and nothing may follow a key update. -/
def verdict : List Bytes → Bytes → Verdict
  | [], q =>
    if q = [] ∨ q.head? = some ticketType ∨ q.head? = some updateType then .accept else .refuse
  | m :: ms, q =>
    if m.head? = some ticketType then
      if m.length = 4 then .emptyBody else verdict ms q
    else if m.head? = some updateType then
      if m.length = 4 then .emptyBody else if ms = [] ∧ q = [] then .accept else .refuse
    else .refuse

/-- The request byte of the key update that ends the record, if there is one. -/
def finalKeyUpdate (ms : List Bytes) : Option UInt8 :=
  match ms.getLast? with
  | some m => if m.head? = some updateType then m[4]? else none
  | none => none

end S2A.Spec
