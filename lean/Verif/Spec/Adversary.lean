import Verif.Model.Frame
/-
Two connections and an attacker who is the network: what was sealed, what was opened, and
what it means that no tag was forged.
-/
namespace S2A.Spec
open Record (Op Event)
open HalfConn (AeadCall)

/-- An AEAD encryption: key, nonce and inputs, and the result (ciphertext and tag). -/
structure Sealing where
  call : AeadCall
  text : Bytes
  deriving DecidableEq, Repr

/-- The AEAD encryptions whose result an end has handed out (as a record after its five byte
header). -/
def seals : List Event → List Sealing
  | [] => []
  | .sealed r :: evs =>
    match r.call with
    | some c => if r.code = .ok then ⟨c, (r.out.bytes.take r.written).drop 5⟩ :: seals evs
                else seals evs
    | none => seals evs
  | _ :: evs => seals evs

/-- The AEAD decryptions at an end that succeeded. -/
def opens : List Event → List AeadCall
  | [] => []
  | .opened r :: evs =>
    match r.call with
    | some c => if r.inner.isSome then c :: opens evs else opens evs
    | none => opens evs
  | _ :: evs => opens evs

/-- No forgery in this run: whatever end `B` opened under a key, a nonce and a header is a
ciphertext that `A` or `B` made under this key, this nonce and this header.  (This is what
ciphertext integrity of the AEAD promises for all but a negligible part of the runs.) -/
def Unforged (evsA evsB : List Event) : Prop :=
  ∀ c ∈ opens evsB, ∃ x ∈ seals evsA ++ seals evsB,
    x.call.key = c.key ∧ x.call.nonce = c.nonce ∧ x.call.aad = c.aad ∧ x.text = c.data

/-- The number of key updates. -/
def epochs : List KeyUse → Nat
  | [] => 0
  | .aead _ _ :: us => epochs us
  | .rekey :: us => epochs us + 1

/-- The key schedule has not collided in this run: of the keys that `A` sends with and `B`
receives with, those of different epochs differ, and none is a key `B` sends with. -/
structure KeysDistinct (L : Lib) (s : Suite) (b : Record.CreateArgs) (evsA evsB : List Event) :
    Prop where
  epoch : ∀ i ≤ epochs (Record.outTrace evsA), ∀ j ≤ epochs (Record.inTrace evsB),
    trafficKey L s.hash (secretAfter L s.hash b.inSecret i) s.keyLen =
      trafficKey L s.hash (secretAfter L s.hash b.inSecret j) s.keyLen → i = j
  direction : ∀ i ≤ epochs (Record.outTrace evsB), ∀ j ≤ epochs (Record.inTrace evsB),
    trafficKey L s.hash (secretAfter L s.hash b.outSecret i) s.keyLen ≠
      trafficKey L s.hash (secretAfter L s.hash b.inSecret j) s.keyLen

/-- The application data that was given to the successful `Protect` calls of a history. -/
def sentData : List Op → List Event → List Bytes
  | .protect _ .applicationData pt _ :: ops, .sealed r :: evs =>
    if r.code = .ok then flat pt :: sentData ops evs else sentData ops evs
  | _ :: ops, _ :: evs => sentData ops evs
  | _, _ => []

/-- What the successful `Unprotect` calls of a history delivered. -/
def deliveredData : List Event → List Bytes
  | [] => []
  | .opened r :: evs =>
    if r.code = .ok then r.out.bytes.take r.written :: deliveredData evs else deliveredData evs
  | _ :: evs => deliveredData evs

/-- Buffers a caller may pass to a call: a null buffer has length zero. -/
def ValidArgs : Op → Prop
  | .unprotect _ _ payload out => AllWF payload ∧ out.WF
  | _ => True

/-- Only application data is sent, and the sender never updates its key: all that a frame
protector does. -/
def DataOnly : Op → Prop
  | .protect _ rt _ _ => rt = .applicationData
  | .unprotect .. => True
  | .updateOutboundKey _ => False

/-- What one end sends with the other receives with. -/
structure Mirrored (a b : Record.CreateArgs) : Prop where
  suite : a.ciphersuite = b.ciphersuite
  secret : a.outSecret = b.inSecret
  seq : a.outSequence = b.inSequence

/-! ### Frame protectors -/

/-- Did the call succeed? -/
def Succeeded : Frame.Event → Prop
  | .result r => r.status = .ok
  | .status st _ _ => st = .ok

instance (e : Frame.Event) : Decidable (Succeeded e) := by
  cases e <;> unfold Succeeded <;> infer_instance

/-- Every `Protect` call of a history succeeded. -/
def SendsOk : List Frame.Op → List Frame.Event → Prop
  | .protect .. :: ops, e :: evs => Succeeded e ∧ SendsOk ops evs
  | .protectInto .. :: ops, e :: evs => Succeeded e ∧ SendsOk ops evs
  | _ :: ops, _ :: evs => SendsOk ops evs
  | _, _ => True

/-- Every `Unprotect` call of a history succeeded. -/
def ReceivesOk : List Frame.Op → List Frame.Event → Prop
  | .unprotect .. :: ops, e :: evs => Succeeded e ∧ ReceivesOk ops evs
  | .unprotectInto .. :: ops, e :: evs => Succeeded e ∧ ReceivesOk ops evs
  | _ :: ops, _ :: evs => ReceivesOk ops evs
  | _, _ => True

/-- All bytes given to `Protect`, in order. -/
def sentBytes : List Frame.Op → Bytes
  | [] => []
  | .protect _ vs :: ops => flat vs ++ sentBytes ops
  | .protectInto _ vs _ :: ops => flat vs ++ sentBytes ops
  | _ :: ops => sentBytes ops

/-- All bytes delivered by `Unprotect`, in order. -/
def receivedBytes : List Frame.Op → List Frame.Event → Bytes
  | .unprotect .. :: ops, .result r :: evs => (r.bytes.map (·.2)).flatten ++ receivedBytes ops evs
  | .unprotectInto .. :: ops, .status _ len out :: evs =>
    out.bytes.take len ++ receivedBytes ops evs
  | _ :: ops, _ :: evs => receivedBytes ops evs
  | _, _ => []

/-- Buffers a caller may pass: a null buffer has length zero. -/
def ValidFrameArgs : Frame.Op → Prop
  | .protect _ vs => AllWF vs
  | .protectInto _ vs _ => AllWF vs
  | .unprotect .. => True
  | .unprotectInto _ _ out => out.WF

end S2A.Spec
