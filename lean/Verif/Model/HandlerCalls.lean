import Verif.Model.Handshake
/-
src/record_protocol/handshake_message_handler.{h,cc}: the class as its own API, called any
number of times.
-/
namespace S2A.Handler

/-- A call to a `HandshakeMessageHandler` (handshake_message_handler.h:84-110).  `process none`
passes a null pointer. -/
inductive Call
  | process (plaintext : Option Bytes)
  | getStoredTickets
  deriving DecidableEq, Repr

/-- What a call returns.  A ticket is returned as a list of fragments. -/
inductive Answer
  | result (r : Result)
  | tickets (ts : List (List Bytes))
  | status (s : StatusCode)
  deriving DecidableEq, Repr

/-- One call.  The null check is handshake_message_handler.cc:51-55; the rest of
`ProcessHandshakeMessage` is `process`, and `GetStoredTickets` is
handshake_message_handler.cc:161-180. -/
def call (h : Handler) : Call → Exec (Handler × Answer)
  | .process none => .ok (h, .status .invalidArgument)
  | .process (some plaintext) => do
    let (h, r) ← h.process plaintext
    match r with
    | .ok r => return (h, .result r)
    | .error s => return (h, .status s)
  | .getStoredTickets => do
    let (h, r) ← h.getStoredTickets
    match r with
    | .ok ts => return (h, .tickets ts)
    | .error s => return (h, .status s)

/-- Calls on one handler, one after the other. -/
def calls (h : Handler) : List Call → Exec (List Answer)
  | [] => .ok []
  | c :: cs => do
    let (h, a) ← h.call c
    let as ← h.calls cs
    return a :: as

end S2A.Handler
