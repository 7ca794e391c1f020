import Verif.Model.Record
import Verif.Model.TicketSender
/-
Model of the end of a connection: src/record_protocol/s2a_crypter.cc (destructor), the ticket
sender that frame protectors use.
-/
namespace S2A.Record

/-- What a ticket sender does with the options it is given
(src/record_protocol/s2a_ticket_sender.h:33-52): the requests it puts on its way to S2A, and the
function it returns to wait for the answer -- `none` for the null pointer, otherwise what
the function returns when called. -/
abbrev Sender := SenderCall → List Proto.SessionReq × Option Bool

/-- `SendTicketsToS2A` (s2a_upb_ticket_sender.cc:27-30). -/
def sendTicketsToS2A : Sender := fun _ => ([], none)

/-- `wait_on_ticket_sender_function_` (s2a_crypter.h:184, s2a_crypter.cc:590-591): null at first,
then what the last call of the sender returned. -/
def waitFunction (S : Sender) : List SenderCall → Option Bool
  | [] => none
  | [x] => (S x).2
  | _ :: xs => waitFunction S xs

/-- What the destructor does. [src/record_protocol/s2a_crypter.cc:184-190] -/
inductive EndEvent
  | wait (result : Bool)
  | log
  deriving DecidableEq, Repr

/-- `S2ACrypter::~S2ACrypter` (s2a_crypter.cc:184-190). -/
def destroy (S : Sender) (c : Conn) : List EndEvent :=
  match waitFunction S c.sent with
  | none => []
  | some b => if !b then [.wait b, .log] else [.wait b]

/-- The requests that the sender has put on their way to S2A over the life of a connection
(s2a_crypter.cc:583-591). -/
def requests (S : Sender) (c : Conn) : List Proto.SessionReq := c.sent.flatMap fun x => (S x).1

end S2A.Record
