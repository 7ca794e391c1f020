import Verif.Model.HalfConn
import Verif.Spec.Nonces
/-
Histories of calls on one `S2AHalfConnection`
(public methods in src/record_protocol/s2a_half_connection.h:33-66).
-/
namespace S2A.HalfConn

/-- A call: `Encrypt`, `Decrypt` or `UpdateKey`, with the library failures during it.
[src/record_protocol/s2a_half_connection.h:33-66] -/
inductive Op
  | encrypt (f : EvpFault) (aad plaintext : List Iovec) (out : Bytes)
  | decrypt (f : EvpFault) (aad ciphertextAndTag : List Iovec) (out : Iovec)
  | updateKey (f : KeyFault)

/-- What is observed of a call: the AEAD call it made (if any) and its status.
[src/record_protocol/s2a_half_connection.h:33-66] -/
inductive Event
  | aead (call : Option AeadCall) (status : StatusCode)
  | updated (status : StatusCode)
  deriving DecidableEq, Repr

/-- Is the call an encryption or decryption? [no counterpart in the code] -/
def Op.isAead : Op → Bool
  | .updateKey _ => false
  | _ => true

/-- One call (src/record_protocol/s2a_half_connection.h:33-66). -/
def step (L : Lib) (hc : HalfConn) : Op → Exec (HalfConn × Event)
  | .encrypt f aad pt out => do
    let (hc', call, r) ← hc.encrypt L f aad pt (.buf out)
    return (hc', .aead call r.status)
  | .decrypt f aad ct out => do
    let (hc', call, r) ← hc.decrypt L f aad ct out
    return (hc', .aead call r.status)
  | .updateKey f => do
    let (hc', st) ← hc.updateKey L f
    return (hc', .updated st)

/-- The AEAD calls and successful key updates of a history. [observation; no counterpart in the
code] -/
def trace : List Event → List Spec.KeyUse
  | [] => []
  | .aead (some c) _ :: es => .aead c.key c.nonce :: trace es
  | .aead none _ :: es => trace es
  | .updated .ok :: es => .rekey :: trace es
  | .updated _ :: es => trace es

/-- A history from a state. [the user of src/record_protocol/s2a_half_connection.h] -/
def run (L : Lib) : HalfConn → List Op → Exec (HalfConn × List Event)
  | hc, [] => .ok (hc, [])
  | hc, op :: ops => do
    let (hc', e) ← hc.step L op
    let (hc'', es) ← run L hc' ops
    return (hc'', e :: es)

end S2A.HalfConn
