import Verif.Model.Callback
import Verif.Spec.Race
/-
What the functions of a user must not do (C103).
-/
namespace S2A.Spec
open Race (Callback Method)

/-- Which methods the functions of the user may call on the frame protector that calls them:
none of them calls the `Unprotect` that allocates; the logger and `destroy` do not call `Protect`;
and if one of these two calls the `Unprotect` of a single record, then the destructor of the
channel factory does not call `Protect` either. -/
def Harmless (may : Callback → Method → Prop) : Prop :=
  (∀ k, ¬ may k .unprotect) ∧
  ∀ k, k = .logger ∨ k = .destroy →
    ¬ may k .protect ∧ ¬ may k .protectInto ∧
    (may k .unprotectInto →
      ¬ may .channelFactory .protect ∧ ¬ may .channelFactory .protectInto)

/-- Any number of threads make any calls on a frame protector, and its functions of the user call
the methods `may` on it, with any outcomes: no schedule leads to a state in which all unfinished
threads wait. -/
def Lively (may : Callback → Method → Prop) : Prop :=
  ∀ (T : Type) [DecidableEq T] (calls : T → List Race.Call) (prog : T → List Race.Act),
    (∀ t, Race.Does may (calls t) (prog t)) → Machine.NoDeadlock prog

end S2A.Spec
