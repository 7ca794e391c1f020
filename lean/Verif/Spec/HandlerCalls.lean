import Verif.Spec.Handshake
/-
What a caller of the handshake message handler is told, in terms of the byte stream it has
passed in.
-/
namespace S2A.Spec

/-- A call: some bytes of the peer's handshake stream (`none`: a null pointer), or the request
for the tickets. -/
inductive HsCall
  | bytes (d : Option Bytes)
  | tickets

/-- What the caller is told: a summary of the bytes just passed, the tickets (each as one
string), or an error. -/
inductive HsAnswer
  | summary (moreToCome sawUpdate : Bool) (request : Option UInt8) (sawTicket : Bool)
      (kept : Nat)
  | tickets (ts : List Bytes)
  | invalidArgument
  | internal
  deriving DecidableEq, Repr

/-- What the caller has to know: the bytes of an unfinished message, and the tickets kept
(`none` once they have been fetched). -/
structure HsState where
  unfinished : Bytes
  kept : Option (List Bytes)

/-- A new handler. -/
def HsState.new : HsState := ⟨[], some []⟩

/-- What a caller is told by each of the calls.  Bytes are joined to the unfinished message and
cut into messages.  The first five tickets are kept until they are fetched, which can happen
once, and not in the middle of a ticket.  There is no answer (`none`) when a message with an
empty body has arrived, and for calls after a refusal. -/
def hsAnswers (s : HsState) : List HsCall → Option (List HsAnswer)
  | [] => some []
  | .bytes none :: cs => (hsAnswers s cs).map (.invalidArgument :: ·)
  | .bytes (some d) :: cs =>
    let (ms, q) := hsSplit (s.unfinished ++ d)
    match verdict ms q with
    | .emptyBody => none
    | .refuse => if cs.isEmpty then some [.internal] else none
    | .accept =>
      let kept := s.kept.map fun ts => (ts ++ tickets ms).take 5
      let saw := fun t => !d.isEmpty && mentionsType t ms q
      (hsAnswers ⟨q, kept⟩ cs).map
        (.summary (!q.isEmpty) (saw updateType) (finalKeyUpdate ms) (saw ticketType)
          ((kept.getD []).length) :: ·)
  | .tickets :: cs =>
    match s.kept with
    | none => (hsAnswers s cs).map (.internal :: ·)
    | some ts =>
      if s.unfinished.head? = some ticketType then (hsAnswers s cs).map (.internal :: ·)
      else (hsAnswers ⟨s.unfinished, none⟩ cs).map (.tickets ts :: ·)

end S2A.Spec
