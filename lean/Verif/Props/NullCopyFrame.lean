import Verif.Lemmas.NullCopyFrame
import Verif.Props.NullCopy
import Verif.Props.Frame
/-
C119 for the record layer and the frame protector: copying no bytes through a null pointer.
-/
namespace S2A.NullCopy
open Spec.NullCopy

/-- Proved instead of C119 for `S2ACrypter`: in no history of calls on a created crypter is a null
pointer copied through or cleared, if the payload buffers given to `Unprotect` are not null.  The
header, the output buffer and everything given to `Protect` may be. -/
theorem C119_record_partial (L : Lib) (a : Record.CreateArgs) (c : Record.Conn)
    (hc : Record.Created L a c) (ops : List Record.Op)
    (hn : ∀ f header payload out, Record.Op.unprotect f header payload out ∈ ops →
      ∀ v ∈ payload, NotNull v) :
    recordRun L c ops = Record.run L c ops := by
  obtain ⟨fi, fo, h⟩ := hc
  obtain ⟨_, _, _, _, _, _, e⟩ := Record.create_inv h
  exact recordRun_eq L ops c (by rw [e]; exact wait_init) hn

/-- With null payload buffers the crypter does the same or uses a null pointer. -/
theorem C119_record_otherwise (L : Lib) (a : Record.CreateArgs) (c : Record.Conn)
    (hc : Record.Created L a c) (ops : List Record.Op) :
    recordRun L c ops = Record.run L c ops ∨ recordRun L c ops = .error .nullDeref := by
  obtain ⟨fi, fo, h⟩ := hc
  obtain ⟨_, _, _, _, _, _, e⟩ := Record.create_inv h
  exact recordRun_or L ops c (by rw [e]; exact wait_init)

/-- The codes and lengths the calls of `Unprotect` returned. -/
def codes (es : List Record.Event) : List (Record.Code × Nat) :=
  es.filterMap fun | .opened r => some (r.code, r.written) | _ => none

open Record.Demo in
/-- A ticket and then application data, which sends the ticket; a refused record with a null output
buffer is covered too. -/
example : (Record.run Lib.toy right
      (.unprotect .none (.buf ((recordAt (pos 0) [1, 23]).take 5))
          [.buf ((recordAt (pos 0) [1, 23]).drop 5)] (.null 0) ::
        recvAll (pos 1) [[4, 0, 0, 2, 7, 8, 22], [1, 23]])).toOption.map
      (fun x => (x.1.sent.map (·.tickets), codes x.2)) =
    some ([[[4, 0, 0, 2, 7, 8]]], [(.internalError, 0), (.ok, 0), (.ok, 1)]) := by
  decide +kernel

open Record.Demo in
/-- Negation of C119 for `S2ACrypter`: an empty null buffer between the ciphertext and its tag, which the
public `Unprotect` of the crypter accepts, is copied from when the tag is collected. -/
theorem C119_record_uses_null : ∃ f header payload out,
    recordRun Lib.toy right [.unprotect f header payload out] = .error .nullDeref ∧
    (Record.run Lib.toy right [.unprotect f header payload out]).toOption.map
      (fun x => codes x.2) = some [(.ok, 1)] :=
  ⟨.none, .buf ((recordAt (pos 0) [1, 23]).take 5),
    [.buf (((recordAt (pos 0) [1, 23]).drop 5).take 2), .null 0,
      .buf ((recordAt (pos 0) [1, 23]).drop 7)], .buf [0, 0],
    by decide +kernel, by decide +kernel⟩

namespace Frame
open S2A.Frame

/-- C119 for the frame protector: whatever buffers it is given, null or not, in no history of calls
on a created protector is a null pointer copied through or cleared. -/
theorem C119_frame_protector (L : Lib) (A : Allocator) (o : Options) (s : State)
    (hs : Created L o s) (ops : List Op) :
    run L A s ops = S2A.Frame.run L A s ops := by
  obtain ⟨_, _, _, ⟨fi, fo, h⟩, _⟩ := created_inv hs
  obtain ⟨_, _, _, _, _, _, e⟩ := Record.create_inv h
  exact run_eq L A ops s (by rw [e]; exact wait_init)

open S2A.Frame.Demo in
/-- The record of the counterexample above, with empty null buffers: the protector asserts that the buffers of
a record are not null, so it is stopped before. -/
example : S2A.Frame.run Lib.toy alloc rightS
    [.unprotect (fun _ => .none) [.buf ((record 0 [1, 23]).take 7), .null 0,
      .buf ((record 0 [1, 23]).drop 7)]] = .error .assertFail := by
  decide +kernel

end Frame
end S2A.NullCopy
