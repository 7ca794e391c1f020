import Verif.Model.Machine
/-
Data races as the C++ standard has them: two accesses to one place in memory by different threads,
one of them a write, neither of which happens before the other ([intro.races]).
-/
namespace S2A.Machine
variable {S : Shape} {T : Type} [DecidableEq T]

/-- A step that was made: the state before it, and the thread that made it. -/
structure Made (S : Shape) (T : Type) where
  before : Config S T
  thread : T

/-- What was done in the step. -/
def Made.action (e : Made S T) : Option (Action S) := (e.before.prog e.thread).head?

/-- The memory touched in the step, and whether it was written. -/
def Made.touched (e : Made S T) : List (Loc S × Bool) :=
  match e.action with
  | some a => touches e.before e.thread a
  | none => []

/-- The steps made in a schedule, up to and with the first use of an invalid pointer. -/
def trace (c : Config S T) : List T → List (Made S T)
  | [] => []
  | t :: ts =>
    match exec c t with
    | .stuck => trace c ts
    | .next c' => ⟨c, t⟩ :: trace c' ts
    | .invalid => [⟨c, t⟩]

/-- Step `i` happens before step `j`: one thread makes both, in this order, or step `i` releases a
mutex that step `j` acquires later, or there is a step in between. -/
inductive HappensBefore (steps : List (Made S T)) : Nat → Nat → Prop
  | sequenced {i j : Nat} {e f : Made S T} (hi : steps[i]? = some e) (hj : steps[j]? = some f)
      (hlt : i < j) (h : e.thread = f.thread) : HappensBefore steps i j
  | synchronized {i j : Nat} {e f : Made S T} {l : S.Lock} (hi : steps[i]? = some e)
      (hj : steps[j]? = some f) (hlt : i < j) (h1 : e.action = some (.release l))
      (h2 : f.action = some (.acquire l)) : HappensBefore steps i j
  | trans {i j k : Nat} (h1 : HappensBefore steps i j) (h2 : HappensBefore steps j k) :
      HappensBefore steps i k

/-- Two steps touch the same place, and at least one writes there. -/
def Conflict (e f : Made S T) : Prop :=
  ∃ loc w w', (loc, w) ∈ e.touched ∧ (loc, w') ∈ f.touched ∧ (w || w') = true

/-- No schedule has a data race: of two steps that conflict the earlier happens before the later. -/
def DataRaceFree (prog : T → List (Action S)) : Prop :=
  ∀ (schedule : List T) (i j : Nat) (e f : Made S T), i < j →
    (trace (.init prog) schedule)[i]? = some e → (trace (.init prog) schedule)[j]? = some f →
    Conflict e f → HappensBefore (trace (.init prog) schedule) i j

end S2A.Machine
