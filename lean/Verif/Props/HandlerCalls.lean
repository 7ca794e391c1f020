import Verif.Lemmas.HandlerCalls
/-
C120: what the handshake message handler tells its caller.  `Call.toSpec`, `told` and
`Answer.joined` (Lemmas/HandlerCalls.lean) translate between the types of the model and those of
Spec/HandlerCalls.lean.
-/
namespace S2A.Handler
open Spec (HsCall HsAnswer HsState hsAnswers hsSplit verdict finalKeyUpdate)

/-- C120: whatever is passed to a new handler, in whatever pieces, and whenever the tickets are
fetched, each call returns what the specification says. -/
theorem C120_handler_reports (cs : List Call) (want : List HsAnswer)
    (hw : hsAnswers .new (cs.map Call.toSpec) = some want) :
    ∃ got, Handler.init.calls cs = .ok got ∧ got.map Answer.joined = want.map told :=
  calls_say .init cs want hw

/-- The hypothesis of `C120_handler_reports` is met: a ticket in three pieces with the request
for the tickets made twice in between, a null pointer, a key update behind another ticket, the
tickets, and a message of another type. -/
example : hsAnswers .new ([Call.process (some [4, 0]), .getStoredTickets,
      .process (some [0, 2, 9]), .getStoredTickets, .process none,
      .process (some [8, 4, 0, 0, 1, 7, 24, 0, 0, 1, 1]), .getStoredTickets,
      .getStoredTickets, .process (some [4, 0, 0, 1, 7, 24]), .process (some [0, 0, 1, 0]),
      .process (some [1, 2])].map Call.toSpec) =
    some [.summary true false none true 0, .internal, .summary true false none true 0,
      .internal, .invalidArgument, .summary false true (some 1) true 2,
      .tickets [[4, 0, 0, 2, 9, 8], [4, 0, 0, 1, 7]], .internal,
      .summary true true none true 0, .summary false true (some 0) false 0, .internal] := by
  simp [hsAnswers, Call.toSpec, HsState.new, hsSplit, Spec.len24, verdict, Spec.ticketType,
    Spec.updateType, Spec.tickets, Spec.mentionsType, finalKeyUpdate]

/-- The same calls, run. -/
example : (Handler.init.calls [.process (some [4, 0]), .getStoredTickets,
      .process (some [0, 2, 9]), .getStoredTickets, .process none,
      .process (some [8, 4, 0, 0, 1, 7, 24, 0, 0, 1, 1]), .getStoredTickets]) =
    .ok [.result ⟨true, false, 0xff, true, 0⟩, .status .internal,
      .result ⟨true, false, 0xff, true, 0⟩, .status .internal, .status .invalidArgument,
      .result ⟨false, true, 1, true, 2⟩,
      .tickets [[[4, 0], [0, 2], [9], [8]], [[4, 0, 0, 1], [7]]]] := by
  decide +kernel

end S2A.Handler
