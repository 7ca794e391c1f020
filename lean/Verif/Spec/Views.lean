import Verif.Model.Views
/-
What a caller of `PrepareResumptionTicketReq` may do with the strings it passed, and what the
request says then.
-/
namespace S2A.Views.Spec
open S2A.Proto S2A.Util S2A.Views

/-- There is a string at `b`: its characters and a NUL. -/
def Alive (m : Mem) (b : Block) : Prop := ∃ s : Bytes, m b = some (s ++ [0])

/-- The string at `b`. -/
def str (m : Mem) (b : Block) : Bytes := ((m b).getD []).dropLast

/-- The buffers that must be left alone until the request is serialised: that of the identity of
the last successful call, and those of the tickets of all successful calls. -/
structure Held where
  identity : Option Block
  tickets : List Block

/-- A call that looks at the strings: one with tickets and an identity of a known type. -/
def Looks (i : IdObj) (ts : Option (List (Option Block))) : Prop :=
  i.type ≠ .none ∧ ts ≠ none

instance (i : IdObj) (ts : Option (List (Option Block))) : Decidable (Looks i ts) := by
  unfold Looks; infer_instance

/-- What is held after an event. -/
def Held.next (h : Held) : Ev → Held
  | .prepare _ i ts =>
    if Looks i ts then ⟨some i.block, h.tickets ++ (ts.getD []).filterMap id⟩ else h
  | _ => h

/-- What is held after a history. -/
def Held.after (h : Held) (es : List Ev) : Held := es.foldl Held.next h

/-- The memory after an event: only the caller changes it. -/
def memNext (m : Mem) : Ev → Mem
  | .touch b o => m.set b o
  | _ => m

/-- The memory after a history. -/
def memAfter (m : Mem) (es : List Ev) : Mem := es.foldl memNext m

/-- The caller is careful: the strings it passes are there, no ticket is a null pointer, and it
leaves alone what is held. -/
def Careful (m : Mem) (h : Held) : List Ev → Prop
  | [] => True
  | e :: es =>
    (match e with
      | .prepare _ i ts => Looks i ts →
          Alive m i.block ∧ ∀ t ∈ ts.getD [], ∃ b, t = some b ∧ Alive m b
      | .touch b _ => h.identity ≠ some b ∧ b ∉ h.tickets
      | .serialize => True) ∧
    Careful (memNext m e) (h.next e) es

/-- What the caller gets if every call copied the strings (see C52 for what such a request
says). -/
def copied (m : Mem) (q : SessionReq) : List Ev → List Out
  | [] => []
  | .prepare c i ts :: es =>
    let p := TicketSender.prepare c ⟨i.type, str m i.block⟩
      (ts.map (List.map fun t => str m (t.getD 0))) q
    .prepared p.1 :: copied m p.2 es
  | .touch b o :: es => .nothing :: copied (m.set b o) q es
  | .serialize :: es => .bytes q.serialize :: copied m q es

/-- Nothing is held. -/
def Held.nothing : Held := ⟨none, []⟩

end S2A.Views.Spec
