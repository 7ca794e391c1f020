import Verif.Spec.Heard
/-
What becomes of tickets and key updates for every way in which the peer may cut its handshake
messages into records.
-/
namespace S2A.Spec

/-- The contents of the handshake records among some records. -/
def handshakeContents (rs : List (Bytes × UInt8)) : List Bytes :=
  rs.filterMap fun x => if x.2 = handshakeType then some x.1 else none

/-- The record, which follows what is seen in `v`, has a byte of a key update message: of a whole
one, or of the beginning, the middle or the end of one. -/
def carriesUpdate (v : View) (record : Bytes) : Bool :=
  !record.isEmpty &&
    mentionsType updateType (hsSplit (v.rest ++ record)).1 (hsSplit (v.rest ++ record)).2

/-- The number of records that have a byte of a key update message. -/
def updateRecords : View → List Bytes → Nat
  | _, [] => 0
  | v, r :: rs => (if carriesUpdate v r then 1 else 0) + updateRecords (v.hear r) rs

/-- The tickets that are handed on, given the records received so far: those that are due (see
`due`), but if the record that completes the fifth ticket begins another ticket, then none. -/
def handed : View → List (Bytes × UInt8) → Option (List Bytes)
  | _, [] => none
  | v, (content, t) :: rs =>
    if t = handshakeType then
      let v := v.hear content
      if 5 ≤ v.tickets.length then
        if v.rest.head? = some ticketType then none else some (v.tickets.take 5)
      else handed v rs
    else if t = appDataType ∧ v.tickets ≠ [] ∧ v.rest = [] then some v.tickets
    else handed v rs

/-- The last handshake record completed the fifth ticket, when no tickets had been due before,
and it begins another message. -/
def Straddling (rs : List (Bytes × UInt8)) : Prop :=
  ∃ pre content post, rs = pre ++ (content, handshakeType) :: post ∧
    (∀ x ∈ post, x.2 ≠ handshakeType) ∧ due .start pre = none ∧
    5 ≤ (view (handshakeContents pre ++ [content])).tickets.length ∧
    (view (handshakeContents pre ++ [content])).rest ≠ []

end S2A.Spec
