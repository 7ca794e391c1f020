import Verif.Model.Race
/-
What it means that threads can share an object.
-/
namespace S2A.Machine
variable {S : Shape} {T : Type} [DecidableEq T]

/-- No schedule leads to the use of an invalid pointer, and no schedule leads to a state in
which two threads are about to touch the same memory, one of them to write it. -/
def Safe (prog : T → List (Action S)) : Prop :=
  ∀ schedule : List T, ∃ c, run (.init prog) schedule = .ok c ∧ ∀ t a u b, ¬ Race c t a u b

/-- In every state that a schedule leads to, if some thread has not finished then some thread is
not waiting: the next action of some thread happens (or uses an invalid pointer). -/
def NoDeadlock (prog : T → List (Action S)) : Prop :=
  ∀ (schedule : List T) (c : Config S T), run (.init prog) schedule = .ok c →
    (∃ t, c.prog t ≠ []) →
      ∃ u, exec c u = .invalid ∨
        ∃ a rest c', c.prog u = a :: rest ∧ exec c u = .next c' ∧ c'.prog u = rest

end S2A.Machine

namespace S2A.Spec
open Race (ProxyCall Call Sealing)

/-- Two calls on a proxy that must not be made by different threads: the first uses the result of
the handshake, and with it the channel factory, or takes the context, without the lock; the second
does the same or replaces what the first uses. -/
def clashes : ProxyCall → ProxyCall → Bool
  | .createFrameProtector true, .createFrameProtector true => true
  | .createFrameProtector true, .forPeer (.incomplete _) => true
  | .createFrameProtector true, .forPeer .complete => true
  | .getContext true, .getContext true => true
  | .getContext true, .forPeer .complete => true
  | _, _ => false

/-- A call on a frame protector that asks for the number of bytes that a record adds: all calls but
that of a `Protect` into a buffer, all of whose records are refused at once. -/
def asksOverhead : Call → Bool
  | .protectInto rs => rs.any (· ≠ .tooLong)
  | _ => true

end S2A.Spec
