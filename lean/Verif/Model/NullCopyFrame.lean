import Verif.Model.NullCopy
import Verif.Model.Frame
/-
The record layer and the frame protector on top of Model/NullCopy.lean: copying no bytes through a
null pointer is undefined behaviour.  Each function follows its counterpart in Model/HalfConn.lean,
Model/Record.lean and Model/Frame.lean.  Protecting neither copies nor clears with the functions of
the C library.
-/
namespace S2A.NullCopy

/-- `Aead.Crypter.decrypt`; the crypter that uses BoringSSL's interface has no `memcpy` or `memset`
of its own. [src/crypto/s2a_aead_crypter.h:84-110] -/
def crypterDecrypt (L : Lib) (f : EvpFault) (c : Aead.Crypter) (nonce : Bytes)
    (aad ciphertextAndTag : List Iovec) (out : Iovec) : Exec Aead.Result :=
  if L.boring && decide (c.alg = .chachaPoly) then
    Aead.boringDecrypt L f c.alg c.key nonce aad ciphertextAndTag out
  else evpDecrypt L f c.alg c.key nonce aad ciphertextAndTag out

/-- `HalfConn.decrypt`. [src/record_protocol/s2a_half_connection.cc:182-199] -/
def halfDecrypt (L : Lib) (f : EvpFault) (hc : HalfConn) (aad ciphertextAndTag : List Iovec)
    (out : Iovec) : Exec (HalfConn × Option HalfConn.AeadCall × Aead.Result) :=
  if hc.alwaysFail || hc.overflowed then .ok (hc, none, ⟨.internal, 0, out⟩)
  else do
    let (n, hc') ← hc.nonceMask
    let call : HalfConn.AeadCall := ⟨hc.aead.key, n, flat aad, flat ciphertextAndTag⟩
    let r ← crypterDecrypt L f hc.aead call.nonce aad ciphertextAndTag out
    return (hc', some call, r)

section
open Record

/-- `Record.retrieveAndSend`. [src/record_protocol/s2a_crypter.cc:547-592] -/
def retrieveAndSend (c : Conn) : Exec Conn := do
  let (h, r) ← getStoredTickets c.handler
  let c := { c with handler := h }
  match r with
  | .error _ => return c
  | .ok tickets =>
    return { c with
      hasFactory := false,
      sent := c.sent ++ [⟨c.url, c.connectionId, c.localIdentity, tickets, c.hasFactory⟩] }

/-- `Record.handleTickets`. [src/record_protocol/s2a_crypter.cc:510-540] -/
def handleTickets (c : Conn) (r : Handler.Result) : Exec Conn :=
  match c.phase with
  | .done => .ok c
  | _ =>
    let c := if r.containsTicket then { c with phase := .receiving } else c
    if r.containsTicket && decide (r.numFull ≥ Handler.kMaxTickets) then do
      let c ← retrieveAndSend c
      return { c with expecting := false, phase := .done }
    else .ok c

/-- `Record.handleResult`. [src/record_protocol/s2a_crypter.cc:486-545] -/
def afterMessage (L : Lib) (f : KeyFault) (c : Conn) (r : Except StatusCode Handler.Result) :
    Exec (Conn × StatusCode × Option StatusCode) :=
  match r with
  | .error e => .ok (c, e, none)
  | .ok r =>
    let c := { c with expecting := r.expecting }
    if r.containsKeyUpdate then do
      let (inC, st) ← c.inC.updateKey L f
      let c := { c with inC := inC }
      if st ≠ .ok then return (c, .internal, some st)
      else
        let c ← handleTickets c r
        return (c, .ok, some st)
    else do
      let c ← handleTickets c r
      return (c, .ok, none)

/-- `Record.dispatch`. [src/record_protocol/s2a_crypter.cc:381-476] -/
def dispatch (L : Lib) (f : KeyFault) (c : Conn) (call : Option HalfConn.AeadCall)
    (pt : Bytes) (w : Nat) : Exec (Conn × Result) := do
  match ← lastNonzero pt w with
  | none => return (c, ⟨.invalidRecord, 0, .buf pt, call, none, some (pt.take w)⟩)
  | some (n, t) =>
    let zeroed : Iovec := .buf (zeros pt.length)
    if t = kAlert then
      if n < 2 then return (c, ⟨.invalidRecord, 0, zeroed, call, none, some (pt.take w)⟩)
      else match pt[1]? with
        | none => .error .outOfBounds
        | some level =>
          if level = kCloseNotify then
            return ({ c with closeNotify := true },
              ⟨.alertCloseNotify, 0, zeroed, call, none, some (pt.take w)⟩)
          else return (c, ⟨.alertOther, 0, zeroed, call, none, some (pt.take w)⟩)
    else if t = kHandshake then
      let (h, r) ← process c.handler (pt.take n)
      let c := { c with handler := h }
      let (c, st, rekey) ← afterMessage L f c r
      if st ≠ .ok then
        return (c, ⟨.internalError, 0, .buf pt, call, rekey, some (pt.take w)⟩)
      else return (c, ⟨.ok, 0, .buf pt, call, rekey, some (pt.take w)⟩)
    else if t = kAppData then
      if c.expecting then
        return (c, ⟨.invalidRecord, 0, .buf pt, call, none, some (pt.take w)⟩)
      else if c.phase = .receiving then
        let c ← retrieveAndSend c
        return ({ c with phase := .done }, ⟨.ok, n, .buf pt, call, none, some (pt.take w)⟩)
      else return (c, ⟨.ok, n, .buf pt, call, none, some (pt.take w)⟩)
    else return (c, ⟨.invalidRecord, 0, zeroed, call, none, some (pt.take w)⟩)

/-- `Record.unprotect`; `ZeroOutIovec` is a loop, not a `memset`.
[src/record_protocol/s2a_crypter.cc:333-477, 106-111] -/
def unprotect (L : Lib) (f : Fault) (c : Conn) (header : Iovec) (payload : List Iovec)
    (plaintext : Iovec) : Exec (Conn × Result) :=
  if c.closeNotify then .ok (c, ⟨.alertCloseNotify, 0, plaintext, none, none, none⟩)
  else
    let recordLength := header.len + totalLen payload
    if recordLength < c.recordOverhead then
      .ok (c, ⟨.failedPrecondition, 0, plaintext, none, none, none⟩)
    else if recordLength > c.recordOverhead + kMaxPlaintext then
      .ok (c, ⟨.alertRecordOverflow, 0, plaintext, none, none, none⟩)
    else if !validateHeader header recordLength then
      .ok (c, ⟨.failedPrecondition, 0, plaintext, none, none, none⟩)
    else do
      let (inC, call, r) ← halfDecrypt L f.evp c.inC [header] payload plaintext
      let c := { c with inC := inC }
      if r.status ≠ .ok then
        let z ← zeroOut r.out
        return (c, ⟨.internalError, 0, z, call, none, none⟩)
      else match r.out with
        | .null _ => .error .assertFail
        | .buf pt => dispatch L f.key c call pt r.written

/-- `Record.step`. [src/record_protocol/s2a_crypter.h:65-131] -/
def recordStep (L : Lib) (c : Conn) : Op → Exec (Conn × Event)
  | .protect f rt pt rec => do
    let (c, r) ← protect L f c rt pt rec
    return (c, .sealed r)
  | .unprotect f hdr pl out => do
    let (c, r) ← NullCopy.unprotect L f c hdr pl out
    return (c, .opened r)
  | .updateOutboundKey f => do
    let (c, st) ← updateOutboundKey L f c
    return (c, .outboundUpdated st)

/-- `Record.run`. [the user of src/record_protocol/s2a_crypter.h] -/
def recordRun (L : Lib) : Conn → List Op → Exec (Conn × List Event)
  | c, [] => .ok (c, [])
  | c, op :: ops => do
    let (c, e) ← recordStep L c op
    let (c, es) ← recordRun L c ops
    return (c, e :: es)

end

namespace Frame
open S2A.Frame

/-- `Frame.State.crypterUnprotect`. [src/frame_protector/s2a_frame_protector.cc:365, 450] -/
def crypterUnprotect (L : Lib) (f : Record.Fault) (s : State) (header : Bytes)
    (payload : List Iovec) (out : Iovec) : Exec (State × Record.Result) := do
  let (c, r) ← NullCopy.unprotect L f s.conn (.buf header) payload out
  return ({ s with conn := c, evs := s.evs ++ [.opened r] }, r)

/-- `Frame.unprotectInto`. [src/frame_protector/s2a_frame_protector.cc:319-377] -/
def unprotectInto (L : Lib) (f : Record.Fault) (s : State) (vs : List Iovec) (out : Iovec) :
    Exec (State × StatusCode × Nat × Iovec) :=
  if numberBytesToUnprotect s (totalLen vs) = 0 then
    .ok (s, .failedPrecondition, out.len, out)
  else do
    match ← readHeader kHeaderLength 0 vs 0 with
    | .error e => return (s, e, 0, out)
    | .ok (header, vs, on) =>
      match ← isolate vs on (payloadSize header) with
      | .error e => return (s, e, 0, out)
      | .ok (payload, _, _) =>
        let (s, r) ← crypterUnprotect L f s header payload out
        if r.code ≠ .ok then return (s, convertCode r.code, 0, r.out)
        else return (s, .ok, r.written, r.out)

/-- `Frame.unprotectLoop`. [src/frame_protector/s2a_frame_protector.cc:394-465] -/
def unprotectLoop (L : Lib) (A : Allocator) (f : Nat → Record.Fault) :
    (fuel i : Nat) → State → (vs : List Iovec) → (on rem : Nat) → (done : List (BufId × Bytes)) →
    Exec (State × Result)
  | 0, _, _, _, _, _, _ => .error .diverges
  | fuel + 1, i, s, vs, on, rem, done =>
    if rem ≥ s.conn.recordOverhead then do
      match ← readHeader kHeaderLength 0 vs on with
      | .error e => return (s, ⟨e, []⟩)
      | .ok (header, vs, on) =>
        let size := payloadSize header
        match ← isolate vs on size with
        | .error e => return (s, ⟨e, []⟩)
        | .ok (payload, vs, on) =>
          let (s, id, buf) := s.alloc A size
          let (s, r) ← crypterUnprotect L (f i) s header payload buf
          if r.code ≠ .ok then
            return ((s.destroy id buf.len).destroyAll done, ⟨convertCode r.code, []⟩)
          else do
            let rem ← subSize rem (kHeaderLength + size)
            unprotectLoop L A f fuel (i + 1) s vs on rem
              (done ++ [(id, r.out.bytes.take r.written)])
    else return (s, ⟨.ok, done⟩)

/-- `Frame.unprotect`. [src/frame_protector/s2a_frame_protector.cc:379-467] -/
def unprotect (L : Lib) (A : Allocator) (f : Nat → Record.Fault) (s : State) (vs : List Iovec) :
    Exec (State × Result) :=
  let n := totalLen vs
  if n < s.conn.recordOverhead then .ok (s, ⟨.failedPrecondition, []⟩)
  else unprotectLoop L A f (n + 1) 0 s vs 0 n []

/-- `Frame.step`. [include/s2a_frame_protector.h:63-140] -/
def step (L : Lib) (A : Allocator) (s : State) : Op → Exec (State × Event)
  | .protect f vs => do
    let (s, r) ← S2A.Frame.protect L A f s vs
    return (s, .result r)
  | .protectInto f vs out => do
    let (s, st, out) ← S2A.Frame.protectInto L f s .caller vs out
    return (s, .status st out.len out)
  | .unprotect f vs => do
    let (s, r) ← unprotect L A f s vs
    return (s, .result r)
  | .unprotectInto f vs out => do
    let (s, st, len, out) ← unprotectInto L f s vs out
    return (s, .status st len out)

/-- `Frame.run`. [the user of include/s2a_frame_protector.h] -/
def run (L : Lib) (A : Allocator) : State → List Op → Exec (State × List Event)
  | s, [] => .ok (s, [])
  | s, op :: ops => do
    let (s, e) ← step L A s op
    let (s, es) ← run L A s ops
    return (s, e :: es)

end Frame
end S2A.NullCopy
