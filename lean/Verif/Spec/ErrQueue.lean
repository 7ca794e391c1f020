import Verif.Model.ErrQueue
/-
What a call may do to the error queue that the cryptographic library keeps for the thread.
-/
namespace S2A.Spec

/-- The message `m` ends with all errors of the queue `q`, and `q` is not mentioned elsewhere. -/
def Quotes (m : String) (q : ErrQueue) : Prop := ∃ words, m = words ++ String.join q

/-- Some call for an HMAC fails. -/
def AnyHmacFails (f : HkdfFault) : Prop := f.ctxNew = true ∨ f.init = true ∨ ∃ i, f.step i = true

/-- Some call for an HMAC fails while keys are derived. -/
def DerivationFails (f : KeyFault) : Prop :=
  AnyHmacFails f.advance ∨ AnyHmacFails f.key ∨ AnyHmacFails f.nonce

/-- The queue after a call that has found `before`, for which the library has reported `own` (a call
returns at the first failure, so all of `own` is reported by one call of the library), and whose
message mentions no error of the library. -/
inductive Kept (failed : Prop) (message : String) (fault : KeyFault) (own before : ErrQueue) :
    ErrQueue → Prop
  /-- The queue is as it was. -/
  | same : Kept failed message fault own before before
  /-- A key update has failed for an HMAC: its errors stay in the queue. -/
  | derivation : failed → DerivationFails fault →
      (∃ words, message = words ++ "Key update failed.") →
      Kept failed message fault own before (before ++ own)
  /-- A key update has failed for the new cipher: no error is left. -/
  | cipher : failed → fault.create = true →
      (∃ words, message = words ++ "Key update failed.") →
      Kept failed message fault own before []

/-- The queue after a call that has failed for an encryption or a decryption: its message ends with
the errors that were there before, followed by its own, and none is left. -/
def Drained (failed : Prop) (message : String) (own before after : ErrQueue) : Prop :=
  failed ∧ after = [] ∧ Quotes message (before ++ own)

/-- The messages for HMACs that fail. -/
def hmacMessages : List String :=
  ["Could not generate new HMAC context.", "Initializing HMAC failed.",
   "Updating and finalizing HMAC failed.", "Updating HMAC failed."]

/-- The queue after keys and a cipher were to be made for one direction of a new connection, when
no error of the library is in the message. -/
inductive KeptKeys {α : Type} (fault : KeyFault) (own before : ErrQueue) :
    ErrQueue → Except (StatusCode × String) α → Prop
  /-- There was no error of the library: the queue is as it was. -/
  | same (x) : (∀ m, x ≠ .error (.internal, m)) → KeptKeys fault own before before x
  /-- An HMAC has failed: its errors stay in the queue. -/
  | derivation (m) : AnyHmacFails fault.key ∨ AnyHmacFails fault.nonce → m ∈ hmacMessages →
      KeptKeys fault own before (before ++ own) (.error (.internal, m))

/-- The queue after the cipher could not be made: the message ends with the errors that were there
before, followed by its own, and none is left. -/
def DrainedKeys {α : Type} (fault : KeyFault) (own before after : ErrQueue)
    (x : Except (StatusCode × String) α) : Prop :=
  fault.create = true ∧ after = [] ∧ ∃ m, x = .error (.internal, m) ∧ Quotes m (before ++ own)

/-- The calls of the library for key updates during a call for a connection that may fail: for the
`i`-th record. -/
def keyFault : Frame.Op → Nat → KeyFault
  | .unprotect f _, i => (f i).key
  | .unprotectInto f _ _, _ => f.key
  | _, _ => .none

/-- The status that the caller sees. -/
def callStatus : Frame.Event → StatusCode
  | .result r => r.status
  | .status st _ _ => st

end S2A.Spec
