import Verif.Model.Heap
import Verif.Spec.Frame
import Verif.Lemmas.FrameReach
/-
The life of the memory of a connection: calls on a frame protector, and the caller releasing the
buffers that it was given.
-/
namespace S2A.Spec
open Frame (State Op Event BufId MemEvent Options Allocator)

/-- The buffers that a call hands to the caller. -/
def given : Event → List BufId
  | .result r => r.bytes.map (·.1)
  | .status .. => []

/-- The record layer's answers to the records that it was given to decrypt. -/
def codesOf : List Record.Event → List Record.Code
  | [] => []
  | .opened r :: evs => r.code :: codesOf evs
  | _ :: evs => codesOf evs

/-- A call that was made, its result, and the answers of the record layer to the records that were
decrypted during it. -/
structure CallMade where
  op : Op
  event : Event
  codes : List Record.Code

/-- The calls and their results. -/
def CallMade.from (s s' : State) (op : Op) (e : Event) : CallMade :=
  ⟨op, e, codesOf (s'.evs.drop s.evs.length)⟩

/-- `Life L A o s held log hist`: a protector was created with the options `o`; the calls `hist`
were made on it, with these results, and in between the caller released some of the buffers that
it had been given, each once.  The protector is now in state `s`, the caller has not yet released
`held`, and `log` is what happened to the memory, in order. -/
inductive Life (L : Lib) (A : Allocator) (o : Options) :
    State → List BufId → List MemEvent → List CallMade → Prop
  | start {s : State} : Frame.Created L o s → Life L A o s [] [] []
  | call {s s' : State} {held log hist op e new} : Life L A o s held log hist →
      Frame.step L A s op = .ok (s', e) → s'.mem = s.mem ++ new →
      Life L A o s' (held ++ given e) (log ++ new) (hist ++ [.from s s' op e])
  | release {s : State} {held log hist id} (n : Nat) : Life L A o s held log hist → id ∈ held →
      Life L A o s (held.erase id) (log ++ [.destroy id n]) hist

/-- A call of `Protect`, in either form, that failed. -/
def ProtectFailed : CallMade → Prop
  | ⟨.protect .., .result r, _⟩ => r.status ≠ .ok
  | ⟨.protectInto .., .status st .., _⟩ => st ≠ .ok
  | _ => False

/-- A call of `Unprotect` that failed with the status for broken framing. -/
def UnprotectFailedPrecondition : CallMade → Prop
  | ⟨.unprotect .., .result r, _⟩ => r.status = .failedPrecondition
  | _ => False

/-- The number of buffers that a call loses: one for each record, if it is an allocating `Unprotect`
that fails although all records that were decrypted were good. -/
def lostBy : CallMade → Nat
  | ⟨.unprotect .., .result r, codes⟩ =>
    if r.status ≠ .ok ∧ ∀ c ∈ codes, c = .ok then codes.length else 0
  | _ => 0

end S2A.Spec
