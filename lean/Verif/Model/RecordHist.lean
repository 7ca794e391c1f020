import Verif.Model.Record
import Verif.Spec.Nonces
/-
Histories of calls on one `S2ACrypter` (public methods in s2a_crypter.h:65-131).
-/
namespace S2A.Record

/-- A call on a connection, with the library failures during it.
[src/record_protocol/s2a_crypter.h:65-131] -/
inductive Op
  | protect (f : EvpFault) (rt : RecordType) (plaintext : List Iovec) (record : Iovec)
  | unprotect (f : Fault) (header : Iovec) (payload : List Iovec) (plaintext : Iovec)
  | updateOutboundKey (f : KeyFault)

/-- What a call returned. [src/record_protocol/s2a_crypter.h:65-131] -/
inductive Event
  | sealed (r : Result)
  | opened (r : Result)
  | outboundUpdated (status : StatusCode)
  deriving DecidableEq, Repr

/-- Does the call concern the outbound direction? [no counterpart in the code] -/
def Op.isOut : Op → Bool
  | .unprotect .. => false
  | _ => true

/-- The same for what a call returned (no counterpart in the code). -/
def Event.isOut : Event → Bool
  | .opened _ => false
  | _ => true

/-- One call (src/record_protocol/s2a_crypter.h:65-131). -/
def step (L : Lib) (c : Conn) : Op → Exec (Conn × Event)
  | .protect f rt pt rec => do
    let (c, r) ← protect L f c rt pt rec
    return (c, .sealed r)
  | .unprotect f hdr pl out => do
    let (c, r) ← unprotect L f c hdr pl out
    return (c, .opened r)
  | .updateOutboundKey f => do
    let (c, st) ← updateOutboundKey L f c
    return (c, .outboundUpdated st)

/-- A history from a state. [the user of src/record_protocol/s2a_crypter.h] -/
def run (L : Lib) : Conn → List Op → Exec (Conn × List Event)
  | c, [] => .ok (c, [])
  | c, op :: ops => do
    let (c, e) ← step L c op
    let (c, es) ← run L c ops
    return (c, e :: es)

/-- The AEAD call and key update of one `Protect`/`Unprotect` result, in this order. [observation;
no counterpart in the code] -/
def Result.uses (r : Result) : List Spec.KeyUse :=
  (match r.call with
    | some c => [.aead c.key c.nonce]
    | none => []) ++
  (match r.rekey with
    | some .ok => [.rekey]
    | _ => [])

/-- Key uses of the outbound direction. [observation; no counterpart in the code] -/
def outTrace : List Event → List Spec.KeyUse
  | [] => []
  | .sealed r :: es => r.uses ++ outTrace es
  | .opened _ :: es => outTrace es
  | .outboundUpdated .ok :: es => .rekey :: outTrace es
  | .outboundUpdated _ :: es => outTrace es

/-- Key uses of the inbound direction. [observation; no counterpart in the code] -/
def inTrace : List Event → List Spec.KeyUse
  | [] => []
  | .opened r :: es => r.uses ++ inTrace es
  | .sealed _ :: es => inTrace es
  | .outboundUpdated _ :: es => inTrace es

end S2A.Record
