/-
Threads that share memory: locks, plain variables, and objects owned by `std::unique_ptr`
members.  Used to model what the methods of `S2AFrameProtector` and `S2AProxy` do to shared
memory (Model/Race.lean).

A thread is a list of atomic actions.  The order in which the actions of the threads happen
is any interleaving; the C++ memory model is not modelled (programs without data races behave
like this by its rules, and data races are what is looked for).
-/
namespace S2A.Machine

/-- What is shared: locks (`absl::Mutex`), members of type `std::unique_ptr`, other members;
and the names of the places in the code from which objects are used. [absl::Mutex, std::unique_ptr
and threads; no one place in /repo, see Model/Race.lean for the code] -/
structure Shape where
  Lock : Type
  Ptr : Type
  Var : Type
  Site : Type
  [lockEq : DecidableEq Lock]
  [ptrEq : DecidableEq Ptr]
  [varEq : DecidableEq Var]
  [siteEq : DecidableEq Site]

attribute [instance] Shape.lockEq Shape.ptrEq Shape.varEq Shape.siteEq

/-- The members of an object that never change after its construction, and the others.
[absl::Mutex, std::unique_ptr and threads; no one place in /repo, see Model/Race.lean for the
code] -/
inductive Part
  | fixed
  | mutable
  deriving DecidableEq, Repr

/-- An atomic action. [absl::Mutex, std::unique_ptr and threads; no one place in /repo, see
Model/Race.lean for the code] -/
inductive Action (S : Shape)
  /-- `MutexLock`. -/
  | acquire (l : S.Lock)
  | release (l : S.Lock)
  /-- Read the pointer in a `unique_ptr` member. -/
  | load (site : S.Site) (p : S.Ptr)
  /-- Use the object the pointer read last points to: read the part that never changes, or read
  and write the rest. -/
  | deref (site : S.Site) (p : S.Ptr) (part : Part)
  /-- The first half of an assignment to a `unique_ptr` member: replace the pointer by one to a
  new object.  The old pointer is kept. -/
  | install (p : S.Ptr)
  /-- The second half: delete the old object. -/
  | free (p : S.Ptr)
  /-- Read another member. -/
  | read (v : S.Var)
  /-- Write (and perhaps read) another member. -/
  | write (v : S.Var)

instance {S : Shape} : DecidableEq (Action S) := fun a b => by
  cases a <;> cases b <;>
    simp only [Action.acquire.injEq, Action.release.injEq, Action.load.injEq,
      Action.deref.injEq, Action.install.injEq, Action.free.injEq, Action.read.injEq,
      Action.write.injEq, reduceCtorEq] <;> infer_instance

/-- An object: the `n`-th one (from 0) that a `unique_ptr` member owned. -/
abbrev Obj (S : Shape) := S.Ptr × Nat

/-- A state: what the threads have yet to do, the pointer each has read last, who holds the
locks, how often each `unique_ptr` was replaced, and which objects were deleted. [absl::Mutex,
std::unique_ptr and threads; no one place in /repo, see Model/Race.lean for the code] -/
structure Config (S : Shape) (T : Type) where
  prog : T → List (Action S)
  reg : T → Option (Obj S)
  holder : S.Lock → Option T
  ver : S.Ptr → Nat
  freed : Obj S → Bool

/-- The state in which all threads begin. [absl::Mutex, std::unique_ptr and threads; no one place
in /repo, see Model/Race.lean for the code] -/
def Config.init {S : Shape} {T : Type} (prog : T → List (Action S)) : Config S T :=
  ⟨prog, fun _ => none, fun _ => none, fun _ => 0, fun _ => false⟩

/-- A function changed at one place. [absl::Mutex, std::unique_ptr and threads; no one place in
/repo, see Model/Race.lean for the code] -/
def upd {α β : Type} [DecidableEq α] (f : α → β) (a : α) (b : β) : α → β :=
  fun x => if x = a then b else f x

/-- What happens when a thread is scheduled. [absl::Mutex, std::unique_ptr and threads; no one
place in /repo, see Model/Race.lean for the code] -/
inductive Res (C : Type)
  /-- It has finished, or waits for a lock. -/
  | stuck
  | next (c : C)
  /-- It uses a pointer that is not valid. -/
  | invalid

variable {S : Shape} {T : Type} [DecidableEq T]

/-- Schedule thread `t`. [absl::Mutex, std::unique_ptr and threads; no one place in /repo, see
Model/Race.lean for the code] -/
def exec (c : Config S T) (t : T) : Res (Config S T) :=
  match c.prog t with
  | [] => .stuck
  | a :: rest =>
    let c' := { c with prog := upd c.prog t rest }
    match a with
    | .acquire l =>
      match c.holder l with
      | some _ => .stuck
      | none => .next { c' with holder := upd c.holder l (some t) }
    | .release l => .next { c' with holder := upd c.holder l none }
    | .load _ p => .next { c' with reg := upd c.reg t (some (p, c.ver p)) }
    | .deref _ _ _ =>
      match c.reg t with
      | none => .invalid
      | some o => if c.freed o then .invalid else .next c'
    | .install p =>
      .next { c' with reg := upd c.reg t (some (p, c.ver p)), ver := upd c.ver p (c.ver p + 1) }
    | .free _ =>
      match c.reg t with
      | none => .invalid
      | some o => if c.freed o then .invalid else .next { c' with freed := upd c.freed o true }
    | .read _ => .next c'
    | .write _ => .next c'

/-- Run a schedule.  The error is the state before the use of an invalid pointer, and the
thread that uses it. [absl::Mutex, std::unique_ptr and threads; no one place in /repo, see
Model/Race.lean for the code] -/
def run (c : Config S T) : List T → Except (Config S T × T) (Config S T)
  | [] => .ok c
  | t :: ts =>
    match exec c t with
    | .stuck => run c ts
    | .next c' => run c' ts
    | .invalid => .error (c, t)

/-- A place in memory. [absl::Mutex, std::unique_ptr and threads; no one place in /repo, see
Model/Race.lean for the code] -/
inductive Loc (S : Shape)
  | ptr (p : S.Ptr)
  | obj (o : Obj S) (part : Part)
  | var (v : S.Var)

/-- The memory an action of thread `t` touches, and whether it writes there.  The locks are
not memory in this sense. [absl::Mutex, std::unique_ptr and threads; no one place in /repo, see
Model/Race.lean for the code] -/
def touches (c : Config S T) (t : T) : Action S → List (Loc S × Bool)
  | .acquire _ => []
  | .release _ => []
  | .load _ p => [(.ptr p, false)]
  | .deref _ _ .fixed => (c.reg t).toList.map fun o => (.obj o .fixed, false)
  | .deref _ _ .mutable => (c.reg t).toList.map fun o => (.obj o .mutable, true)
  | .install p => [(.ptr p, true)]
  | .free _ => (c.reg t).toList.flatMap fun o => [(.obj o .fixed, true), (.obj o .mutable, true)]
  | .read v => [(.var v, false)]
  | .write v => [(.var v, true)]

/-- A data race: two threads are both about to touch the same place, and at least one of them
is about to write there. [absl::Mutex, std::unique_ptr and threads; no one place in /repo, see
Model/Race.lean for the code] -/
def Race (c : Config S T) (t : T) (a : Action S) (u : T) (b : Action S) : Prop :=
  t ≠ u ∧ (c.prog t).head? = some a ∧ (c.prog u).head? = some b ∧
    ∃ loc w w', (loc, w) ∈ touches c t a ∧ (loc, w') ∈ touches c u b ∧ (w || w') = true

end S2A.Machine
