import Verif.Spec.Frame
/-
Two frame protectors and what is in flight between them.
-/
namespace S2A.Spec
open Frame (State Allocator)

/-- Two protectors (`false` and `true`) and, for each, what it has sent that the other has not
received yet: the bytes on the wire, and beside them the message they carry. -/
structure Session where
  ends : Bool → State
  wire : Bool → List (Bytes × Bytes)

def assign {α : Type} (f : Bool → α) (b : Bool) (x : α) : Bool → α := fun c => if c = b then x else f c

/-- The key update message (RFC 8446, 4.6.3). -/
def keyUpdateMessage (request : UInt8) : Bytes := [24, 0, 0, 1, request]

/-- One event of a session, at either end and in any order: a message is protected and put on
the wire; a key update record is put on the wire and the sender moves to its next keys; or the
oldest item on the wire arrives, cut into buffers in any way.  Nothing is asked of the result
of receiving. -/
inductive SessionStep (L : Lib) (A : Allocator) : Session → Session → Prop
  | send {y : Session} (b : Bool) {f vs s' id w} :
      Frame.protect L A f (y.ends b) vs = .ok (s', ⟨.ok, [(id, w)]⟩) → AllWF vs →
      SessionStep L A y ⟨assign y.ends b s', assign y.wire b (y.wire b ++ [(w, flat vs)])⟩
  | rekey {y : Session} (b : Bool) {f g request ob c r c'} :
      Record.protect L f (y.ends b).conn .handshake [.buf (keyUpdateMessage request)] (.buf ob) =
        .ok (c, r) → r.code = .ok → Record.updateOutboundKey L g c = .ok (c', .ok) →
      SessionStep L A y
        ⟨assign y.ends b { y.ends b with
            conn := c', evs := (y.ends b).evs ++ [.sealed r, .outboundUpdated .ok] },
         assign y.wire b (y.wire b ++ [(r.out.bytes.take r.written, [])])⟩
  | receive {y : Session} (b : Bool) {f : Nat → Record.Fault} {vs w m rest s' res} :
      y.wire (!b) = (w, m) :: rest → flat vs = w → NonEmptyBufs vs →
      (∀ i, f i = .none) → Frame.unprotect L A f (y.ends b) vs = .ok (s', res) →
      SessionStep L A y ⟨assign y.ends b s', assign y.wire (!b) rest⟩

/-- Any number of events. -/
inductive SessionSteps (L : Lib) (A : Allocator) : Session → Session → Prop
  | refl (y : Session) : SessionSteps L A y y
  | step {x y z : Session} : SessionSteps L A x y → SessionStep L A y z → SessionSteps L A x z

/-- The options of two ends agree: each sends with the secret and the sequence number the
other receives with, and they use the same ciphersuite. -/
structure Paired (o p : Frame.Options) : Prop where
  suite : o.crypter.ciphersuite = p.crypter.ciphersuite
  secret : o.crypter.outSecret = p.crypter.inSecret
  secret' : p.crypter.outSecret = o.crypter.inSecret
  seq : o.crypter.outSequence = p.crypter.inSequence
  seq' : p.crypter.outSequence = o.crypter.inSequence

end S2A.Spec
