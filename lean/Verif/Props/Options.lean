import Verif.Lemmas.Options
/-
Options objects: C39.
-/
namespace S2A.TlsOptions
open Spec (Shows pasts pastStep)

/-- `Copy` gives an object with the same contents. -/
theorem C39_copy_faithful (o : TlsOptions) : o.copy = o := copy_eq o

/-- After every history of creating, copying and setting any number of options objects, each
object shows exactly the setter calls in its own past, where the past of a copy begins with
the past of the original. -/
theorem C39_options_history (ops : List Op) :
    (run ops).length = (pasts ops).length ∧
    ∀ (i : Nat) o h, (run ops)[i]? = some o → (pasts ops)[i]? = some h → Shows o h :=
  agree_run ops

/-- A copy keeps the contents the original had when it was copied, whatever is done later, as
long as no setter is called on the copy; and likewise the original as long as no setter is
called on the original. -/
theorem C39_copies_independent (ops rest : List Op) (i : Nat) (o : TlsOptions)
    (ho : (run ops)[i]? = some o) :
    ((∀ s, Op.set (run ops).length s ∉ rest) →
      (run (ops ++ .copy i :: rest))[(run ops).length]? = some o) ∧
    ((∀ s, Op.set i s ∉ rest) → (run (ops ++ .copy i :: rest))[i]? = some o) := by
  have e : run (ops ++ .copy i :: rest) = rest.foldl step (run ops ++ [o]) := by
    simp [run, step] at ho ⊢
    rw [ho]
    simp [C39_copy_faithful]
  rw [e]
  constructor
  · intro hn
    exact foldl_step_untouched _ _ _ _ (by simp) hn
  · intro hn
    refine foldl_step_untouched _ _ _ _ ?_ hn
    rw [List.getElem?_append_left (List.getElem?_eq_some_iff.1 ho).1, ho]

/-- An object is configured, copied, and both are changed. -/
def demo : List Op :=
  [.create, .set 0 (.minTlsVersion .tls1_2), .set 0 (.addCiphersuite .aes128GcmSha256),
   .set 0 (.addCiphersuite .aes128GcmSha256), .set 0 (.addTargetUid [1]),
   .set 0 (.addTargetUid [1]), .copy 0, .set 0 (.minTlsVersion .tls1_3),
   .set 1 (.addTargetHostname [1])]

example : run demo =
    [⟨.tls1_3, .tls1_3, [], [.aes128GcmSha256, .aes128GcmSha256], [⟨.uid, [1]⟩], []⟩,
     ⟨.tls1_2, .tls1_3, [], [.aes128GcmSha256, .aes128GcmSha256],
       [⟨.uid, [1]⟩, ⟨.hostname, [1]⟩], []⟩] := by decide

example : pasts demo =
    [[.minTlsVersion .tls1_2, .addCiphersuite .aes128GcmSha256,
      .addCiphersuite .aes128GcmSha256, .addTargetUid [1], .addTargetUid [1],
      .minTlsVersion .tls1_3],
     [.minTlsVersion .tls1_2, .addCiphersuite .aes128GcmSha256,
      .addCiphersuite .aes128GcmSha256, .addTargetUid [1], .addTargetUid [1],
      .addTargetHostname [1]]] := by decide

end S2A.TlsOptions
