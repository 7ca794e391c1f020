import Verif.Model.Threads
import Verif.Spec.Frame
/-
What it means that calls made by several threads at once behave as if they were made one after
the other.
-/
namespace S2A.Spec
open Frame (Op Event Obs Threads State Allocator)
variable {T : Type} [DecidableEq T]

/-- An event without the identities of buffers. -/
def anonymous : Event → Event
  | .result r => .result ⟨r.status, r.bytes.map fun b => (.caller, b.2)⟩
  | .status st len out => .status st len out

/-- Call `a` returned before call `b` began. -/
def Precedes (log : List (Obs T)) (a b : T × Nat) : Prop :=
  ∃ l1 l2 l3 ev, log = l1 ++ .returned a ev :: l2 ++ .invoked b :: l3

/-- `a` is before `b` in the list. -/
def Earlier {α : Type} (l : List α) (a b : α) : Prop := ∃ l1 l2 l3, l = l1 ++ a :: l2 ++ b :: l3

/-- No thread is inside a call. -/
def AllIdle (c : Threads T) : Prop := ∀ t, ∃ n, c.place t = .idle n

/-- The calls that threads have made since the protector was in the state `s0`, and their
results, are those of making the calls in `order` one after the other:

* every call that returned is in `order` once, and no call that has not begun;
* if a call returned before another began, it comes before it;
* made one after the other in this order (`Frame.run`), the calls give the results that the
  threads got, but for the identities of the buffers, which the allocator hands out in another
  order, none twice;
* each direction of the connection sees the same sequence of calls, and when no call is in
  progress, the connection is in the same state. -/
structure Linearizes (L : Lib) (A : Allocator) (calls : T → List Op) (s0 : State) (c : Threads T)
    (order : List (T × Nat)) : Prop where
  nodup : order.Nodup
  began : ∀ x ∈ order, .invoked x ∈ c.log
  realTime : ∀ a b, Precedes c.log a b → b ∈ order → Earlier order a b
  sequential : ∃ (ops : List Op) (renumber : Nat → Nat) (s : State) (evs : List Event),
    order.map (fun x => (calls x.1)[x.2]?) = ops.map some ∧
    (∀ i j, renumber i = renumber j → i = j) ∧
    Frame.run L (fun i => A (renumber i)) s0 ops = .ok (s, evs) ∧
    (∀ x ev, .returned x ev ∈ c.log → (x, ev) ∈ order.zip (evs.map anonymous)) ∧
    (AllIdle c → s.conn = c.shared.conn ∧
      s.evs.filter (·.isOut) = c.shared.evs.filter (·.isOut) ∧
      s.evs.filter (!·.isOut) = c.shared.evs.filter (!·.isOut))

/-- Is it a call of `Unprotect`? -/
def unprotects : Op → Bool
  | .unprotect .. => true
  | .unprotectInto .. => true
  | _ => false

/-- Is it a call of the non-allocating `Unprotect`? -/
def unprotectsInto : Op → Bool
  | .unprotectInto .. => true
  | _ => false

/-- At no time during the schedule is a thread inside the non-allocating `Unprotect` while another
is inside an `Unprotect`. -/
def Exclusive (L : Lib) (A : Allocator) (calls : T → List Op) (c : Threads T) (sched : List T) :
    Prop :=
  ∀ pre c', pre <+: sched → c.run L A calls pre = .ok c' →
    ∀ t t' n n' p p' op op', t ≠ t' → c'.place t = .inside n p → c'.place t' = .inside n' p' →
      (calls t)[n]? = some op → (calls t')[n']? = some op' →
      unprotectsInto op = true → unprotects op' = false

/-- Undefined behaviour `e` also occurs if calls that have begun are made one after the other, in an
order in which a call that returned before another began comes before it. -/
def FaultsSequentially (L : Lib) (A : Allocator) (calls : T → List Op) (s0 : State)
    (c : Threads T) (e : UB) : Prop :=
  ∃ (order : List (T × Nat)) (ops : List Op) (renumber : Nat → Nat),
    order.Nodup ∧ (∀ x ∈ order, .invoked x ∈ c.log) ∧
    (∀ a b, Precedes c.log a b → b ∈ order → Earlier order a b) ∧
    order.map (fun x => (calls x.1)[x.2]?) = ops.map some ∧
    (∀ i j, renumber i = renumber j → i = j) ∧
    Frame.run L (fun i => A (renumber i)) s0 ops = .error e

/-- The buffers of a call are as the documentation asks: real memory, and for `Unprotect` no empty
piece. -/
def ProperBuffers : Op → Prop
  | .protect .. => True
  | .protectInto _ _ out => ∃ b, out = .buf b
  | .unprotect _ vs => NonEmptyBufs vs
  | .unprotectInto _ vs out => NonEmptyBufs vs ∧ out.WF

end S2A.Spec
