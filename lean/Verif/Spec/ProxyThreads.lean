import Verif.Model.ProxyThreads
import Verif.Spec.Threads
/-
What it means that calls made on one proxy by several threads at once behave as if they were made
one after the other.
-/
namespace S2A.Spec.OnProxy
open Proxy (Op Event Obs Threads State)
variable {T : Type} [DecidableEq T]

/-- Call `a` returned before call `b` began. -/
def Precedes (log : List (Obs T)) (a b : T × Nat) : Prop :=
  ∃ l1 l2 l3 ev, log = l1 ++ .returned a ev :: l2 ++ .invoked b :: l3

/-- No thread is inside a call. -/
def AllIdle (c : Threads T) : Prop := ∀ t, ∃ n, c.place t = .idle n

/-- The calls that threads have made since the proxy was in the state `s0`, and their results, are
those of making the calls in `order` one after the other:

* every call that returned is in `order` once, and no call that has not begun;
* if a call returned before another began, it comes before it;
* made one after the other in this order (`Proxy.run`), the calls give the results that the
  threads got;
* when no call is in progress, the proxy is in the same state. -/
structure Linearizes (L : Lib) (calls : T → List Op) (s0 : State) (c : Threads T)
    (order : List (T × Nat)) : Prop where
  nodup : order.Nodup
  began : ∀ x ∈ order, .invoked x ∈ c.log
  realTime : ∀ a b, Precedes c.log a b → b ∈ order → Earlier order a b
  sequential : ∃ (ops : List Op) (s : State) (evs : List Event),
    order.map (fun x => (calls x.1)[x.2]?) = ops.map some ∧
    Proxy.run L s0 ops = .ok (s, evs) ∧
    (∀ x ev, .returned x ev ∈ c.log → (x, ev) ∈ order.zip evs) ∧
    (AllIdle c → c.shared = s)

/-- Does the call bring the proxy a handshake result: a response of the S2A without error that has
one? -/
def brings : Op → Bool
  | .forPeer dec bytes =>
    bytes.getD [] != [] &&
    match dec (bytes.getD []) with
    | none => false
    | some resp => resp.status.any (·.code == 0) && resp.result.isSome
  | _ => false

/-- Is it a call of `CreateFrameProtector`? -/
def creates : Op → Bool
  | .createFrameProtector .. => true
  | _ => false

/-- Is it a call of `GetS2AContext`? -/
def takesContext : Op → Bool
  | .getContext => true
  | _ => false

/-- What the threads must not do: be inside `CreateFrameProtector` at the same time, or inside
`GetS2AContext` at the same time, or inside one of the two while the proxy is given another
handshake result than the first. -/
def Apart (calls : T → List Op) (c : Threads T) : Prop :=
  ∀ t t' n n' p p' op op', t ≠ t' → c.place t = .inside n p → c.place t' = .inside n' p' →
    (calls t)[n]? = some op → (calls t')[n']? = some op' →
    ¬ (creates op = true ∧ creates op' = true) ∧
    ¬ (takesContext op = true ∧ takesContext op' = true) ∧
    (creates op = true ∨ takesContext op = true → brings op' = true →
      ∀ x op'', .invoked x ∈ c.log → x ≠ (t', n') → (calls x.1)[x.2]? = some op'' →
        brings op'' = false)

/-- At no time during the schedule do they do it. -/
def Exclusive (L : Lib) (calls : T → List Op) (c : Threads T) (sched : List T) : Prop :=
  ∀ pre c', pre <+: sched → c.run L calls pre = .ok c' → Apart calls c'

/-- Undefined behaviour `e` also occurs if calls that have begun are made one after the other, in an
order in which a call that returned before another began comes before it. -/
def FaultsSequentially (L : Lib) (calls : T → List Op) (s0 : State) (c : Threads T) (e : UB) :
    Prop :=
  ∃ (order : List (T × Nat)) (ops : List Op),
    order.Nodup ∧ (∀ x ∈ order, .invoked x ∈ c.log) ∧
    (∀ a b, Precedes c.log a b → b ∈ order → Earlier order a b) ∧
    order.map (fun x => (calls x.1)[x.2]?) = ops.map some ∧
    Proxy.run L s0 ops = .error e

end S2A.Spec.OnProxy
