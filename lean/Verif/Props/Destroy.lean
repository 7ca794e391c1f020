import Verif.Model.Destroy
import Verif.Props.Handshake
import Verif.Props.Frame
/-
C72: the end of a connection.  C73: what becomes of the tickets that frame protectors receive.
-/
namespace S2A.Record
open Demo

set_option maxRecDepth 100000

/-! ## C72: a connection outlives its ticket request -/

/-- Does the event say that the destructor waited? -/
def EndEvent.isWait : EndEvent → Bool
  | .wait _ => true
  | .log => false

/-- For every history and every ticket sender: the destructor waits once for every call of the
sender that returned something to wait for -- none is forgotten, none is waited for twice -- and
it logs an error exactly if such a request failed. -/
theorem C72_waits_for_every_request (L : Lib) (S : Sender) (a : CreateArgs) (c : Conn)
    (evs : List Event) (hr : Reach L a c evs) :
    (destroy S c).countP EndEvent.isWait = c.sent.countP (fun x => (S x).2.isSome) ∧
    (.log ∈ destroy S c ↔ ∃ x ∈ c.sent, (S x).2 = some false) := by
  have h1 := (C24_sent_at_most_once L a c evs hr).1
  unfold destroy
  match hs : c.sent, h1 with
  | [], _ => simp [waitFunction]
  | [x], _ =>
    simp only [waitFunction, List.countP_cons, List.countP_nil, List.mem_singleton]
    cases hx : (S x).2 with
    | none => simp [hx]
    | some b => cases b <;> simp [EndEvent.isWait, hx, List.countP_cons]

/-- Tickets were sent, and the request fails. -/
example : ∃ c evs, Reach Lib.toy rightArgs c evs ∧
    destroy (fun _ => ([], some false)) c = [.wait false, .log] :=
  ⟨_, _, ⟨right, recvAll (pos 0) [[4, 0, 0, 1, 7, 22], [1, 23]], right_created, rfl⟩,
    by decide +kernel⟩

/-- No tickets, nothing to wait for. -/
example : ∃ c evs, Reach Lib.toy rightArgs c evs ∧ destroy (fun _ => ([], some false)) c = [] :=
  ⟨_, _, ⟨right, recvAll (pos 0) [[1, 23]], right_created, rfl⟩, by decide +kernel⟩

end S2A.Record

namespace S2A.Frame
open Record (sendTicketsToS2A requests)
open Record.Demo (pos recordAt)
open Demo

set_option maxRecDepth 100000

/-! ## C73: tickets reach S2A -/

/-- The request for the tickets of a call of the sender (see C52 for what it says). -/
def ticketRequest (x : Record.SenderCall) : Proto.SessionReq :=
  (TicketSender.prepare x.connectionId x.localIdentity (some x.tickets) ⟨.unset, []⟩).2

/-- With a sender that puts the request for its tickets on its way to S2A, every set of tickets
that a protector hands over is in the requests, and nothing else is.

Partial: C73 is about the sender that frame protectors are created with, which sends nothing, see
`C73_counterexample`. -/
theorem C73_requests_partial (S : Record.Sender) (hS : ∀ x, (S x).1 = [ticketRequest x]) (L : Lib)
    (A : Allocator) (o : Options) (s : State) (hr : Reach L A o s) :
    requests S s.conn = s.conn.sent.map ticketRequest ∧ (requests S s.conn).length ≤ 1 := by
  have h1 := (Record.C24_sent_at_most_once L _ _ _ hr.conn.1).1
  have h2 : requests S s.conn = s.conn.sent.map ticketRequest := by
    unfold requests
    induction s.conn.sent with
    | nil => rfl
    | cons x xs ih => rw [List.flatMap_cons, ih, hS]; rfl
  exact ⟨h2, by rw [h2, List.length_map]; exact h1⟩

/-- A protector with the sender it is created with never sends a request, whatever it receives; and
when it is destroyed it waits for nothing and logs nothing. -/
theorem C73_nothing_sent (s : State) : requests sendTicketsToS2A s.conn = [] ∧
    Record.destroy sendTicketsToS2A s.conn = [] := by
  constructor
  · unfold requests sendTicketsToS2A
    simp
  · have : ∀ xs, Record.waitFunction sendTicketsToS2A xs = none := by
      intro xs
      induction xs with
      | nil => rfl
      | cons x xs ih => cases xs with
        | nil => rfl
        | cons y ys => exact ih
    unfold Record.destroy
    rw [this]

/-- A ticket and application data were received, the ticket was handed to the sender, and no
request was sent. -/
theorem C73_counterexample : ∃ s x, Reach Lib.toy alloc rightO s ∧ s.conn.sent = [x] ∧
    x.tickets = [[4, 0, 0, 1, 7]] ∧ requests sendTicketsToS2A s.conn = [] :=
  ⟨_, _, ⟨rightS, [.unprotect (fun _ => .none) [.buf (record 0 [4, 0, 0, 1, 7, 22])],
      .unprotect (fun _ => .none) [.buf (record 1 [1, 23])]], _, right_created, rfl⟩,
    rfl, by decide +kernel, rfl⟩

end S2A.Frame
