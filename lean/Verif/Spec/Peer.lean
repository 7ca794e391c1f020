import Verif.Spec.Handshake
import Verif.Spec.Loss
import Verif.Spec.Senders
import Verif.Spec.Session
/-
What a peer that conforms to RFC 8446 sends after the handshake (sections 4.6, 5.1, 5.4), record by
record.
-/
namespace S2A.Spec

/-- A NewSessionTicket message. -/
def TicketMessage (m : Bytes) : Prop :=
  ∃ body, m = hsMessage ticketType body ∧ body ≠ [] ∧ body.length < 2 ^ 24

/-- The records of a conformant peer from the position `d` on, each with the application data in it.
`begun` is the part that has been sent of a handshake message not yet complete.  A record holds
application data (of any length, even none), and then no handshake message is incomplete; or a
part of the handshake messages: session tickets, complete or not, and at most one key update, after
which the record ends and the keys of the peer change.  Any record may be padded.  Contents and
padding together are at most 2^14 bytes.  `splits`: a record may end in the middle of a key
update. -/
inductive PeerRecords (L : Lib) (splits : Prop) : Dir → (begun : Bytes) → List (Bytes × Bytes) → Prop
  | nil (d : Dir) (begun : Bytes) : PeerRecords L splits d begun []
  | data {d : Dir} {rest} (content : Bytes) (padding : Nat) :
      content.length + padding ≤ 2 ^ 14 → d.seq < 2 ^ 64 → PeerRecords L splits d.next [] rest →
      PeerRecords L splits d []
        ((d.protect L (innerPlaintext content appDataType padding), content) :: rest)
  | tickets {d : Dir} {begun begun' : Bytes} {rest} (ms : List Bytes) (more content : Bytes)
      (padding : Nat) :
      begun ++ content = ms.flatten ++ begun' → (∀ m ∈ ms, TicketMessage m) →
      more ≠ [] → TicketMessage (begun' ++ more) →
      content ≠ [] → content.length + padding ≤ 2 ^ 14 → d.seq < 2 ^ 64 →
      PeerRecords L splits d.next begun' rest →
      PeerRecords L splits d begun
        ((d.protect L (innerPlaintext content handshakeType padding), []) :: rest)
  | update {d : Dir} {begun : Bytes} {rest} (ms : List Bytes) (request : UInt8) (content : Bytes)
      (padding : Nat) :
      begun ++ content = ms.flatten ++ keyUpdateMessage request → (∀ m ∈ ms, TicketMessage m) →
      content ≠ [] → content.length + padding ≤ 2 ^ 14 → d.seq < 2 ^ 64 →
      PeerRecords L splits (d.next.update L) [] rest →
      PeerRecords L splits d begun
        ((d.protect L (innerPlaintext content handshakeType padding), []) :: rest)
  | partOfUpdate {d : Dir} {begun begun' : Bytes} {rest} (ms : List Bytes) (request : UInt8)
      (more content : Bytes) (padding : Nat) : splits →
      begun ++ content = ms.flatten ++ begun' → (∀ m ∈ ms, TicketMessage m) →
      begun' ≠ [] → more ≠ [] → begun' ++ more = keyUpdateMessage request →
      content ≠ [] → content.length + padding ≤ 2 ^ 14 → d.seq < 2 ^ 64 →
      PeerRecords L splits d.next begun' rest →
      PeerRecords L splits d begun
        ((d.protect L (innerPlaintext content handshakeType padding), []) :: rest)

/-- The way from one position of a conformant peer to a later one: `PeerSends L d begun recs d' begun'`
says that the records `recs`, in none of which a key update is split, take the peer from the position
`d`, with `begun` sent of an incomplete message, to the position `d'`, with `begun'` sent. -/
inductive PeerSends (L : Lib) : Dir → Bytes → List (Bytes × Bytes) → Dir → Bytes → Prop
  | nil (d : Dir) (begun : Bytes) : PeerSends L d begun [] d begun
  | data {d d' : Dir} {q' : Bytes} {rest} (content : Bytes) (padding : Nat) :
      content.length + padding ≤ 2 ^ 14 → d.seq < 2 ^ 64 → PeerSends L d.next [] rest d' q' →
      PeerSends L d []
        ((d.protect L (innerPlaintext content appDataType padding), content) :: rest) d' q'
  | tickets {d d' : Dir} {q' begun begun' : Bytes} {rest} (ms : List Bytes) (more content : Bytes)
      (padding : Nat) :
      begun ++ content = ms.flatten ++ begun' → (∀ m ∈ ms, TicketMessage m) →
      more ≠ [] → TicketMessage (begun' ++ more) →
      content ≠ [] → content.length + padding ≤ 2 ^ 14 → d.seq < 2 ^ 64 →
      PeerSends L d.next begun' rest d' q' →
      PeerSends L d begun
        ((d.protect L (innerPlaintext content handshakeType padding), []) :: rest) d' q'
  | update {d d' : Dir} {q' begun : Bytes} {rest} (ms : List Bytes) (request : UInt8)
      (content : Bytes) (padding : Nat) :
      begun ++ content = ms.flatten ++ keyUpdateMessage request → (∀ m ∈ ms, TicketMessage m) →
      content ≠ [] → content.length + padding ≤ 2 ^ 14 → d.seq < 2 ^ 64 →
      PeerSends L (d.next.update L) [] rest d' q' →
      PeerSends L d begun
        ((d.protect L (innerPlaintext content handshakeType padding), []) :: rest) d' q'

/-- A record of a peer at the position `d` that ends in the middle of a key update: `begun` was sent
before it of an incomplete message, and `begun'` of the key update is sent with it. -/
inductive EndsInUpdate (L : Lib) (d : Dir) (begun begun' : Bytes) : (record : Bytes) → Prop
  | mk (ms : List Bytes) (request : UInt8) (more content : Bytes) (padding : Nat) :
      begun ++ content = ms.flatten ++ begun' → (∀ m ∈ ms, TicketMessage m) →
      begun' ≠ [] → more ≠ [] → begun' ++ more = keyUpdateMessage request →
      content ≠ [] → content.length + padding ≤ 2 ^ 14 → d.seq < 2 ^ 64 →
      EndsInUpdate L d begun begun' (d.protect L (innerPlaintext content handshakeType padding))

/-- A record that opens at the position `d`. -/
def OpensAt (L : Lib) (d : Dir) (record : Bytes) : Prop :=
  ∃ inner, d.open L (record.take 5) (record.drop 5) = some inner

/-- The `Unprotect` calls among some calls are given these records, in this order: each call of the
allocating variant one or more records, in any non-empty pieces; each call of the other variant one
record, and a buffer as long as `NumberBytesToUnprotect` says or longer.  The crypto library
does not fail in them.  The calls of `Protect` among them are given real memory. -/
inductive IsGiven : List Frame.Op → List (Bytes × Bytes) → Prop
  | nil : IsGiven [] []
  | protect {ops recs} (f vs) : AllWF vs → IsGiven ops recs → IsGiven (.protect f vs :: ops) recs
  | protectInto {ops recs} (f vs) (out : Bytes) : AllWF vs → IsGiven ops recs →
      IsGiven (.protectInto f vs (.buf out) :: ops) recs
  | unprotect {ops recs} (vs) (batch : List (Bytes × Bytes)) : batch ≠ [] → NonEmptyBufs vs →
      flat vs = (batch.map (·.1)).flatten → IsGiven ops recs →
      IsGiven (.unprotect (fun _ => .none) vs :: ops) (batch ++ recs)
  | unprotectInto {ops recs} (vs) (record : Bytes × Bytes) (out : Bytes) : NonEmptyBufs vs →
      flat vs = record.1 → record.1.length ≤ out.length + 5 → IsGiven ops recs →
      IsGiven (.unprotectInto .none vs (.buf out) :: ops) (record :: recs)

end S2A.Spec
