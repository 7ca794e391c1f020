import Verif.Lemmas.Alike
import Verif.Props.Frame
import Verif.Props.Text
/-
C92: of the application data only the lengths of its buffers have an effect, but for the records.
-/
set_option maxRecDepth 100000
namespace S2A.Frame
open Spec (outline Both)

/-- C92.  Two histories of calls on the same frame protector that differ only in the bytes of the
messages given to `Protect` go the same way: the calls have the same undefined behaviour, or return
the same statuses, messages, log lines and buffers (of the same lengths, in the same place) and ask
for and release the same memory; every `Unprotect` gives the very same answer; and afterwards the
connection — its keys, its counters, the tickets it has passed on — is the same.  Only the bytes of
the records that `Protect` made may differ. -/
theorem C92_only_lengths_show (L : Lib) (A : Allocator) (s : State)
    (ops ops' : List (Op × (Nat → String))) (h : Spec.AllSameButData ops ops') :
    Both (fun x y => x.1.conn = y.1.conn ∧ x.1.mem = y.1.mem ∧ x.1.next = y.1.next ∧
      Spec.AllSameButRecords ops x.2 y.2) (runT L A s ops) (runT L A s ops') := by
  have h1 := runT_alike L A h (Twin.refl s)
  generalize runT L A s ops = x at h1
  generalize runT L A s ops' = y at h1
  cases x with
  | error e =>
    cases y with
    | error e' => exact h1
    | ok b => exact h1.elim
  | ok a =>
    cases y with
    | error e' => exact h1.elim
    | ok b => exact ⟨h1.1.conn, h1.1.mem, h1.1.next, h1.2⟩

namespace Demo
open S2A.Demo (texts)

/-- A message is sent (from two buffers, the second time into the caller's buffer), one is
received, an attempt to send fails and one more is sent. -/
def busy (a b : Bytes) : List (Op × (Nat → String)) :=
  [(.protect (fun _ => .none) [.buf a, .null 0, .buf b], texts),
   (.unprotect (fun _ => .none) [.buf (Frame.Demo.record 0 [9, 8, 23])], texts),
   (.protectInto (fun _ => .none) [.buf b] (.buf (List.replicate (b.length + 22) 5)), texts),
   (.protect (fun _ => { EvpFault.none with final := true }) [.buf b], texts),
   (.protect (fun _ => .none) [.buf (a ++ b)], texts)]

end Demo

/-- Two such histories. -/
example : Spec.AllSameButData (Demo.busy [1, 2] [3]) (Demo.busy [7, 7] [0]) :=
  .cons _ (.protect _ rfl) (.cons _ (.same _) (.cons _ (.protectInto _ rfl rfl)
    (.cons _ (.protect _ rfl) (.cons _ (.protect _ rfl) .nil))))

/-- They end, and the records differ. -/
example : ∃ s es s' es', runT Lib.toy Demo.alloc Demo.rightS (Demo.busy [1, 2] [3]) = .ok (s, es) ∧
    runT Lib.toy Demo.alloc Demo.rightS (Demo.busy [7, 7] [0]) = .ok (s', es') ∧
    es.map (fun e => match e.1 with | .result r => r.status | .status st _ _ => st) =
      [.ok, .ok, .ok, .internal, .ok] ∧
    es.map Prod.snd = es'.map Prod.snd ∧ es ≠ es' := by
  refine ⟨_, _, _, _, rfl, rfl, ?_, ?_, ?_⟩ <;> decide +kernel

/-- A message of another length shows. -/
example : ¬ Spec.AllSameButData (Demo.busy [1, 2] [3]) (Demo.busy [7] [0]) := by
  intro h
  cases h with
  | cons _ h1 _ =>
    have h2 := (opAlike h1).2
    exact absurd h2 (by decide)

end S2A.Frame
