import Verif.Spec.Senders
/-
Threads at both ends of a connection, and the network between them.
-/
namespace S2A.Spec
open Frame (Op Event Obs)
variable {T : Type}

/-- `order` lists the calls of a kind that threads have made and that have returned, each once.  A
call that returned before another began comes before it; so do the calls of one thread. -/
structure CallOrder (calls : T → List Op) (log : List (Obs T)) (kind : Op → Bool)
    (order : List (T × Nat)) : Prop where
  once : order.Nodup
  all : ∀ x, x ∈ order ↔
    (∃ op, (calls x.1)[x.2]? = some op ∧ kind op = true) ∧ ∃ ev, .returned x ev ∈ log
  realTime : ∀ a ∈ order, ∀ b ∈ order, Precedes log a b → Earlier order a b
  perThread : ∀ t m n, (t, m) ∈ order → (t, n) ∈ order → m < n → Earlier order (t, m) (t, n)

/-- The message given to a call of `Protect`. -/
def message : Op → Bytes
  | .protect _ vs => flat vs
  | .protectInto _ vs _ => flat vs
  | _ => []

/-- What a call of `Unprotect` hands out: the buffers it returns, or the part of the buffer of the
caller that it says it has filled. -/
def bytesHandedOut : Event → Bytes
  | .result r => (r.bytes.map (·.2)).flatten
  | .status _ len out => out.bytes.take len

/-- The buffers that a call of `Unprotect` hands out, if it succeeds. -/
def handedPieces : Event → List Bytes
  | .result r => if r.status = .ok then r.bytes.map (·.2) else []
  | .status st len out => if st = .ok then [out.bytes.take len] else []

/-- All calls of a kind that have returned have succeeded. -/
def AllSucceeded (calls : T → List Op) (log : List (Obs T)) (kind : Op → Bool) : Prop :=
  ∀ t n op ev, (calls t)[n]? = some op → kind op = true → .returned (t, n) ev ∈ log → Succeeded ev

end S2A.Spec
