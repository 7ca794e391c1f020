import Verif.Model.HandlerCalls
/-
src/record_protocol/handshake_message_handler_test.cc, replayed on the model.  These are tests.
-/
namespace S2A.Conform.HandlerTest
open Handler (Call Answer Result)

/-- `CreateOneTicket` (lines 58-66). -/
def ticket : Bytes := [4, 0, 0, 10] ++ List.replicate 10 0
/-- `CreateKeyUpdateRecord` (lines 151-160). -/
def update : Bytes := [24, 0, 0, 1, 1]
/-- `CreateOneTicketDataFragmented` (lines 68-87). -/
def dataCut : List Bytes := [[4, 0, 0, 10, 0, 0, 0, 0, 0], [0, 0, 0, 0, 0]]
/-- `CreateOneTicketHeaderFragmented` (lines 89-110). -/
def headerCut : List Bytes := [[4, 0], [0, 10] ++ List.replicate 10 0]

/-- What a new handler answers to some records. -/
def reads (ds : List Bytes) : Option (List Answer) :=
  (Handler.init.calls (ds.map fun d => .process (some d))).toOption

/-- A result with tickets only. -/
def ticketResult (more : Bool) (n : Nat) : Answer := .result ⟨more, false, 0xff, true, n⟩

/-- The fragments of each ticket joined. -/
def joined : Answer → Answer
  | .tickets ts => .tickets (ts.map fun t => [t.flatten])
  | a => a

/-- `ProcessHandshakeMessageFailure` (lines 281-288). -/
example : (Handler.init.calls [.process none]).toOption = some [.status .invalidArgument] := by
  decide +kernel

/-- `OneTicketInOneRecord` (lines 290-302). -/
example : reads [ticket] = some [ticketResult false 1] := by decide +kernel

/-- `TwoTicketsInOneRecord` (lines 304-316). -/
example : reads [ticket ++ ticket] = some [ticketResult false 2] := by decide +kernel

/-- `TwoTicketsInTwoConsecutiveRecords` (lines 318-340). -/
example : reads [ticket, ticket] = some [ticketResult false 1, ticketResult false 2] := by
  decide +kernel

/-- `OneTicketInTwoRecordsDataFragmented` (lines 342-365). -/
example : reads dataCut = some [ticketResult true 0, ticketResult false 1] := by decide +kernel

/-- `OneTicketInTwoRecordsHeaderFragmented` (lines 367-391). -/
example : reads headerCut = some [ticketResult true 0, ticketResult false 1] := by
  decide +kernel

/-- `ProcessHandshakeMessageReachedTicketLimit` (lines 393-420). -/
example : reads (List.replicate 6 ticket) =
    some ([1, 2, 3, 4, 5, 5].map (ticketResult false)) := by
  decide +kernel

/-- `OneKeyUpdateInOneRecord` (lines 422-433). -/
example : reads [update] = some [.result ⟨false, true, 1, false, 0⟩] := by decide +kernel

/-- `TwoTicketsAndKeyUpdateInOneRecord` (lines 435-446). -/
example : reads [ticket ++ ticket ++ update] = some [.result ⟨false, true, 1, true, 2⟩] := by
  decide +kernel

/-- `KeyUpdateNotTheLastByteFailure` (lines 448-459). -/
example : reads [update ++ update] = some [.status .internal] := by decide +kernel

/-- `GetStoredTicketsSuccess` (lines 461-498). -/
example : ((Handler.init.calls
      ((List.replicate 3 ticket ++ dataCut ++ headerCut).map (fun d => Call.process (some d)) ++
        [.getStoredTickets])).toOption.map fun as => (as.drop 6).map joined) =
    some [ticketResult false 5, .tickets (List.replicate 5 [ticket])] := by
  decide +kernel

/-- `GetStoredTicketsAlreadyRetrievedFailure` (lines 500-522). -/
example : ((Handler.init.calls [.process (some ticket), .getStoredTickets,
      .getStoredTickets]).toOption.map fun as => as.map joined) =
    some [ticketResult false 1, .tickets [[ticket]], .status .internal] := by
  decide +kernel

end S2A.Conform.HandlerTest
