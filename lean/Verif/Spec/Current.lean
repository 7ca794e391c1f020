import Verif.Model.HalfConn
import Verif.Spec.Record
/-
Specification for C105: what the memory of a direction may hold.
-/
namespace S2A.Record

/-- What the memory of one direction holds and what it was made from: `hc` is what creating the
direction anew gives, from the secret and the sequence number of `d` and nothing else.  The one
difference is the mark that all sequence numbers are used up, which a new direction never has. -/
def HoldsOnly (L : Lib) (cs : Ciphersuite) (d : Spec.Dir) (hc : HalfConn) : Prop :=
  ∃ new, HalfConn.create L .none cs (UInt64.ofNat d.seq) d.secret = .ok (.ok new) ∧
    hc = { new with overflowed := decide (d.seq = 2 ^ 64) }

end S2A.Record
