import Verif.Spec.Handshake
/-
What becomes of a handshake record in every situation, also after messages that were out of
order: whether the bytes are accepted or refused, or whether reading them is undefined behaviour.
-/
namespace S2A.Spec

/-- What a connection makes of the handshake bytes so far.
* `inside got`: all in order; `got` are the bytes of a message that is not complete.
* `foreign got`: inside a message that is neither a ticket nor a key update, of which `got` was
  read.
* `stale other n`: a message was read to its end but not put away, namely one with an empty
  body, a key update that was not the last in its record, or (`other`) one of another type; and
  `n` bytes of the header of another message were read after it. -/
inductive Reader
  | inside (got : Bytes)
  | foreign (got : Bytes)
  | stale (other : Bool) (n : Nat)
  deriving DecidableEq, Repr

/-- The length of the body that a header announces. -/
def bodyLength : Bytes → Nat
  | _ :: a :: b :: c :: _ => len24 a b c
  | _ => 0

/-- Bytes that are missing in the part (the header, or the body) that `got` ends in. -/
def missing (got : Bytes) : Nat :=
  if got.length < 4 then 4 - got.length else 4 + bodyLength got - got.length

/-- A foreign message goes on with `record`: only the part it is in is read, and the rest of the
record is skipped. -/
def Reader.skip (got record : Bytes) : Reader :=
  let got' := got ++ record.take (missing got)
  if 4 ≤ got'.length ∧ got'.length = 4 + bodyLength got' then .stale true 0 else .foreign got'

/-- After a message that was not put away `more` bytes arrive: the header of the next message must
not get complete. -/
def Reader.wait (other : Bool) (n : Nat) (more : Bytes) : Option (Reader × Bool) :=
  if n + more.length < 4 then some (.stale other (n + more.length), more.isEmpty || !other)
  else none

/-- Reading the complete messages `ms` and the incomplete one `q`.  The result says how things
stand then and whether the bytes were accepted; `none` is undefined behaviour. -/
def Reader.read : List Bytes → Bytes → Option (Reader × Bool)
  | [], q =>
    if q = [] ∨ q.head? = some ticketType ∨ q.head? = some updateType then some (.inside q, true)
    else some (.skip [] q, false)
  | m :: ms, q =>
    if m.head? = some ticketType ∨ m.head? = some updateType then
      if m.length = 4 then Reader.wait false 0 (ms.flatten ++ q)
      else if m.head? = some ticketType then Reader.read ms q
      else if ms = [] ∧ q = [] then some (.inside [], true)
      else some (.stale false 0, false)
    else some (.skip [] m, false)

/-- A handshake record arrives. -/
def Reader.hear : Reader → Bytes → Option (Reader × Bool)
  | .inside got, record => Reader.read (hsSplit (got ++ record)).1 (hsSplit (got ++ record)).2
  | .foreign got, record =>
    if record = [] then some (.foreign got, true) else some (.skip got record, false)
  | .stale other n, record => Reader.wait other n record

/-- How things stand after some handshake records, if nothing was undefined. -/
def reader (records : List Bytes) : Option Reader :=
  records.foldl (fun o record => o.bind fun r => (r.hear record).map Prod.fst) (some (.inside []))

end S2A.Spec
