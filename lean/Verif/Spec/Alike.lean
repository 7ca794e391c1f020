import Verif.Model.Text
/-
Two runs that differ in the contents of some buffers.
-/
namespace S2A.Spec

/-- What can be seen of a buffer without looking into it: is it null, and how long is it? -/
def outline : Iovec → Bool × Nat
  | .null n => (true, n)
  | .buf b => (false, b.length)

/-- Two calls on a frame protector that are the same, but for the bytes of the message given to
`Protect` (and those that are in the buffer for its result). -/
inductive SameButData : Frame.Op → Frame.Op → Prop
  | same (op) : SameButData op op
  | protect (f) {vs ws} : vs.map outline = ws.map outline →
      SameButData (.protect f vs) (.protect f ws)
  | protectInto (f) {vs ws out out'} : vs.map outline = ws.map outline → outline out = outline out' →
      SameButData (.protectInto f vs out) (.protectInto f ws out')

/-- Two results that are the same, but for the bytes in the records that `Protect` made. -/
inductive SameButRecords : Frame.Op → Frame.Event → Frame.Event → Prop
  | protect {f vs} {r r' : Frame.Result} : r.status = r'.status →
      r.bytes.map (fun b => (b.1, b.2.length)) = r'.bytes.map (fun b => (b.1, b.2.length)) →
      SameButRecords (.protect f vs) (.result r) (.result r')
  | protectInto {f vs out} {w w' : Iovec} (st n) : outline w = outline w' →
      SameButRecords (.protectInto f vs out) (.status st n w) (.status st n w')
  | unprotect {f vs} (e) : SameButRecords (.unprotect f vs) e e
  | unprotectInto {f vs out} (e) : SameButRecords (.unprotectInto f vs out) e e

/-- Two histories of calls, each with the error queues of the library during it. -/
inductive AllSameButData :
    List (Frame.Op × (Nat → String)) → List (Frame.Op × (Nat → String)) → Prop
  | nil : AllSameButData [] []
  | cons {op op' ops ops'} (errs) : SameButData op op' → AllSameButData ops ops' →
      AllSameButData ((op, errs) :: ops) ((op', errs) :: ops')

/-- Two lists of results, each with what was logged and the message of the status. -/
inductive AllSameButRecords : List (Frame.Op × (Nat → String)) → List (Frame.Event × Said) →
    List (Frame.Event × Said) → Prop
  | nil : AllSameButRecords [] [] []
  | cons {op errs ops e e' es es'} (said) : SameButRecords op e e' → AllSameButRecords ops es es' →
      AllSameButRecords ((op, errs) :: ops) ((e, said) :: es) ((e', said) :: es')

/-- Two executions that both have the same undefined behaviour, or both end, with related results. -/
def Both {α β : Type} (R : α → β → Prop) : Exec α → Exec β → Prop
  | .ok a, .ok b => R a b
  | .error e, .error e' => e = e'
  | _, _ => False

end S2A.Spec
