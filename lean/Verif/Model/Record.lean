import Verif.Model.HalfConn
import Verif.Model.Handshake
import Verif.Model.Options
/-
src/record_protocol/s2a_crypter.{h,cc}
-/
namespace S2A.Record

/-- `S2ACrypter::RecordType` (s2a_crypter.h:43-47); `other n` is any other value. -/
inductive RecordType
  | applicationData | alert | handshake
  | other (n : Nat)
  deriving DecidableEq, Repr

/-- `S2ACrypterStatusCode` (s2a_crypter.h:49-63). -/
inductive Code
  | ok | incompleteRecord | invalidArgument | invalidRecord | renegotiationAttempt
  | alertCloseNotify | alertRecordOverflow | alertOther | internalError | failedPrecondition
  | endOfData | unimplemented | unknown
  deriving DecidableEq, Repr

/-- `TicketHandlingPhase` (s2a_crypter.h:159). -/
inductive Phase
  | notReceived | receiving | done
  deriving DecidableEq, Repr

/-- Constants (s2a_crypter.cc:55-65). -/
abbrev kHeaderLength : Nat := 5
/-- Constant (src/record_protocol/s2a_crypter.cc:58). -/
abbrev kMaxPlaintext : Nat := 16384
/-- Constant (src/record_protocol/s2a_crypter.cc:62). -/
abbrev kAlert : UInt8 := 0x15
/-- Constant (src/record_protocol/s2a_crypter.cc:55, 63). -/
abbrev kAppData : UInt8 := 0x17
/-- Constant (src/record_protocol/s2a_crypter.cc:64). -/
abbrev kHandshake : UInt8 := 0x16
/-- Constant (src/record_protocol/s2a_crypter.cc:56). -/
abbrev kWireVersion : UInt8 := 0x03
/-- Constant (src/record_protocol/s2a_crypter.cc:65). -/
abbrev kCloseNotify : UInt8 := 0x00

/-- The options a ticket-sender invocation gets (s2a_ticket_sender.h:28-42); the channel
factory and its options are reduced to "was there one". -/
structure SenderCall where
  url : Bytes
  connectionId : UInt64
  localIdentity : Identity
  tickets : List Bytes
  hasFactory : Bool
  deriving DecidableEq, Repr

/-- State of `S2ACrypter` (s2a_crypter.h:147-185).  `sent` records the invocations of
`ticket_sender_function_` so far; `hasFactory` says whether `channel_factory_` still holds
the object.  The logger and `wait_on_ticket_sender_function_` are not modelled. -/
structure Conn where
  connectionId : UInt64
  url : Bytes
  localIdentity : Identity
  inC : HalfConn
  outC : HalfConn
  closeNotify : Bool
  handler : Handler
  phase : Phase
  expecting : Bool
  hasFactory : Bool
  sent : List SenderCall
  deriving DecidableEq, Repr

/-- `ConvertRecordType` (s2a_crypter.cc:67-79). -/
def convertRecordType : RecordType → Except StatusCode UInt8
  | .applicationData => .ok kAppData
  | .alert => .ok kAlert
  | .handshake => .ok kHandshake
  | .other _ => .error .failedPrecondition

/-- `ConvertStatusCode` (s2a_crypter.cc:81-96). -/
def convertStatus : StatusCode → Code
  | .ok => .ok
  | .unknown => .unknown
  | .invalidArgument => .invalidArgument
  | .failedPrecondition => .failedPrecondition
  | .unimplemented => .unimplemented
  | _ => .internalError

/-- `ZeroOutIovec` (s2a_crypter.cc:106-111). -/
def zeroOut : Iovec → Exec Iovec
  | .null n => if n = 0 then .ok (.null 0) else .error .nullDeref
  | .buf d => .ok (.buf (zeros d.length))

/-- The five bytes `WriteTls13RecordHeader` writes (s2a_crypter.cc:113-125). -/
def headerBytes (payloadSize : Nat) : Bytes :=
  [kAppData, kWireVersion, kWireVersion, UInt8.ofNat (payloadSize >>> 8), UInt8.ofNat payloadSize]

/-- `ValidateTls13RecordHeader` (s2a_crypter.cc:129-143). -/
def validateHeader (header : Iovec) (recordSize : Nat) : Bool :=
  match header with
  | .buf [b0, b1, b2, b3, b4] =>
    b0 == kAppData && b1 == kWireVersion && b2 == kWireVersion &&
      recordSize == kHeaderLength + (b3.toNat <<< 8) + b4.toNat
  | _ => false

/-- `S2ACrypter::RecordOverhead` (s2a_crypter.cc:479-482). -/
def Conn.recordOverhead (c : Conn) : Nat := kHeaderLength + 1 + c.inC.tagLength

/-- Parameters of `S2ACrypter::Create` (s2a_crypter.cc:192-204); the callbacks are
reduced to "is it null". -/
structure CreateArgs where
  tlsVersion : TlsVersion
  ciphersuite : Ciphersuite
  connectionId : UInt64
  url : Bytes
  localIdentity : Identity
  inSecret : Bytes
  outSecret : Bytes
  inSequence : UInt64
  outSequence : UInt64
  hasSender : Bool
  hasFactory : Bool
  hasLogger : Bool

/-- `S2ACrypter::Create` (s2a_crypter.cc:192-256) and the constructor (160-182). -/
def create (L : Lib) (fIn fOut : KeyFault) (a : CreateArgs) : Exec (Except StatusCode Conn) :=
  if a.url.isEmpty then .ok (.error .invalidArgument)
  else if !a.hasLogger then .ok (.error .invalidArgument)
  else if !a.hasSender then .ok (.error .invalidArgument)
  else if a.tlsVersion ≠ .tls1_3 then .ok (.error .invalidArgument)
  else do
    match ← HalfConn.create L fIn a.ciphersuite a.inSequence a.inSecret with
    | .error e => return .error e
    | .ok inC =>
      match ← HalfConn.create L fOut a.ciphersuite a.outSequence a.outSecret with
      | .error e => return .error e
      | .ok outC =>
        return .ok { connectionId := a.connectionId, url := a.url,
                     localIdentity := a.localIdentity, inC := inC, outC := outC,
                     closeNotify := false, handler := .init, phase := .notReceived,
                     expecting := false, hasFactory := a.hasFactory, sent := [] }

/-- `S2ACrypterStatus` plus the contents of the output buffer and, as observations, the AEAD
call made, the status of the key update made during the call, and the plaintext that a
successful decryption gave (if any). [src/record_protocol/s2a_crypter.h:49-63] -/
structure Result where
  code : Code
  written : Nat
  out : Iovec
  call : Option HalfConn.AeadCall
  rekey : Option StatusCode
  inner : Option Bytes
  deriving DecidableEq, Repr

/-- `S2ACrypter::Protect` (s2a_crypter.cc:258-331).  `record` is the output buffer.  The
record header is both the start of the output and the associated data. -/
def protect (L : Lib) (f : EvpFault) (c : Conn) (rt : RecordType) (plaintext : List Iovec)
    (record : Iovec) : Exec (Conn × Result) :=
  let n := totalLen plaintext
  if n > kMaxPlaintext then .ok (c, ⟨.failedPrecondition, 0, record, none, none, none⟩)        -- 263-271
  else if record.len < n + c.recordOverhead then
    .ok (c, ⟨.failedPrecondition, 0, record, none, none, none⟩)                                -- 274-281
  else
    let payloadSize := n + 1 + c.outC.tagLength                                    -- 284-285
    match record with
    | .null _ => .error .assertFail                                                -- 287
    | .buf rb => do
      let hdr := headerBytes payloadSize
      let rb ← writeAt rb 0 hdr                                                    -- 288-289
      match convertRecordType rt with
      | .error e => return (c, ⟨convertStatus e, 0, .buf rb, none, none, none⟩)                -- 297-305
      | .ok t =>
        let payload := plaintext ++ [.buf [t]]                                     -- 306-312
        let rest ← (Iovec.buf rb).slice kHeaderLength (rb.length - kHeaderLength)
        let (outC, call, r) ← c.outC.encrypt L f [.buf hdr] payload rest           -- 317-320
        let c := { c with outC := outC }
        if r.status ≠ .ok then
          return (c, ⟨convertStatus r.status, 0, .buf (zeros rb.length), call, none, none⟩)    -- 321-328
        else
          return (c, ⟨.ok, r.written + kHeaderLength,
            .buf (rb.take kHeaderLength ++ r.out.bytes), call, none, none⟩)

/-- The loop searching the last non-zero byte among the first `n`
(s2a_crypter.cc:393-404). -/
def lastNonzero (b : Bytes) : Nat → Exec (Option (Nat × UInt8))
  | 0 => .ok none
  | i + 1 =>
    match b[i]? with
    | none => .error .outOfBounds
    | some x => if x ≠ 0 then .ok (some (i, x)) else lastNonzero b i

/-- `RetrieveStoredTicketsAndSendToS2A` (s2a_crypter.cc:547-592): merging the fragments of
a ticket is concatenation. -/
def retrieveAndSend (c : Conn) : Exec Conn := do
  let (h, r) ← c.handler.getStoredTickets
  let c := { c with handler := h }
  match r with
  | .error _ => return c
  | .ok tickets =>
    return { c with
      hasFactory := false,
      sent := c.sent ++ [⟨c.url, c.connectionId, c.localIdentity, tickets.map List.flatten,
        c.hasFactory⟩] }

/-- The ticket part of `HandleProcessHandshakeMessageResult` (s2a_crypter.cc:510-540). -/
def handleTickets (c : Conn) (r : Handler.Result) : Exec Conn :=
  match c.phase with
  | .done => .ok c
  | _ =>
    let c := if r.containsTicket then { c with phase := .receiving } else c
    if r.containsTicket && decide (r.numFull ≥ Handler.kMaxTickets) then do
      let c ← retrieveAndSend c
      return { c with expecting := false, phase := .done }
    else .ok c

/-- `HandleProcessHandshakeMessageResult` (s2a_crypter.cc:486-545); `f` are the library
failures during the key update.  Also reports the status of the key update made, if any. -/
def handleResult (L : Lib) (f : KeyFault) (c : Conn) (r : Except StatusCode Handler.Result) :
    Exec (Conn × StatusCode × Option StatusCode) :=
  match r with
  | .error e => .ok (c, e, none)
  | .ok r =>
    let c := { c with expecting := r.expecting }
    if r.containsKeyUpdate then do
      let (inC, st) ← c.inC.updateKey L f
      let c := { c with inC := inC }
      if st ≠ .ok then return (c, .internal, some st)
      else
        let c ← handleTickets c r
        return (c, .ok, some st)
    else do
      let c ← handleTickets c r
      return (c, .ok, none)

/-- Library failures during one `Unprotect`. [src/record_protocol/s2a_crypter.cc:333-477] -/
structure Fault where
  evp : EvpFault
  key : KeyFault

/-- No failure (no counterpart in the code). -/
def Fault.none : Fault := ⟨.none, .none⟩

/-- The part of `S2ACrypter::Unprotect` after a successful decryption
(s2a_crypter.cc:381-476): `pt` is the plaintext buffer, `w` the number of bytes the AEAD
wrote. -/
def dispatch (L : Lib) (f : KeyFault) (c : Conn) (call : Option HalfConn.AeadCall)
    (pt : Bytes) (w : Nat) : Exec (Conn × Result) := do
  match ← lastNonzero pt w with
  | none => return (c, ⟨.invalidRecord, 0, .buf pt, call, none, some (pt.take w)⟩)                    -- 400-404
  | some (n, t) =>
    let zeroed : Iovec := .buf (zeros pt.length)
    if t = kAlert then                                                              -- 413-435
      if n < 2 then return (c, ⟨.invalidRecord, 0, zeroed, call, none, some (pt.take w)⟩)
      else match pt[1]? with
        | none => .error .outOfBounds
        | some level =>
          if level = kCloseNotify then
            return ({ c with closeNotify := true }, ⟨.alertCloseNotify, 0, zeroed, call, none, some (pt.take w)⟩)
          else return (c, ⟨.alertOther, 0, zeroed, call, none, some (pt.take w)⟩)
    else if t = kHandshake then                                                     -- 436-451
      let (h, r) ← c.handler.process (pt.take n)
      let c := { c with handler := h }
      let (c, st, rekey) ← handleResult L f c r
      if st ≠ .ok then return (c, ⟨.internalError, 0, .buf pt, call, rekey, some (pt.take w)⟩)
      else return (c, ⟨.ok, 0, .buf pt, call, rekey, some (pt.take w)⟩)
    else if t = kAppData then                                                       -- 452-468
      if c.expecting then return (c, ⟨.invalidRecord, 0, .buf pt, call, none, some (pt.take w)⟩)
      else if c.phase = .receiving then
        let c ← retrieveAndSend c
        return ({ c with phase := .done }, ⟨.ok, n, .buf pt, call, none, some (pt.take w)⟩)
      else return (c, ⟨.ok, n, .buf pt, call, none, some (pt.take w)⟩)
    else return (c, ⟨.invalidRecord, 0, zeroed, call, none, some (pt.take w)⟩)                              -- 469-474

/-- `S2ACrypter::Unprotect` (s2a_crypter.cc:333-477).  `plaintext` is the output buffer. -/
def unprotect (L : Lib) (f : Fault) (c : Conn) (header : Iovec) (payload : List Iovec)
    (plaintext : Iovec) : Exec (Conn × Result) :=
  if c.closeNotify then .ok (c, ⟨.alertCloseNotify, 0, plaintext, none, none, none⟩)            -- 336-342
  else
    let recordLength := header.len + totalLen payload
    if recordLength < c.recordOverhead then
      .ok (c, ⟨.failedPrecondition, 0, plaintext, none, none, none⟩)                            -- 346-351
    else if recordLength > c.recordOverhead + kMaxPlaintext then
      .ok (c, ⟨.alertRecordOverflow, 0, plaintext, none, none, none⟩)                           -- 356-361
    else if !validateHeader header recordLength then
      .ok (c, ⟨.failedPrecondition, 0, plaintext, none, none, none⟩)                            -- 364-369
    else do
      let (inC, call, r) ← c.inC.decrypt L f.evp [header] payload plaintext         -- 371-372
      let c := { c with inC := inC }
      if r.status ≠ .ok then
        let z ← zeroOut r.out
        return (c, ⟨.internalError, 0, z, call, none, none⟩)                                    -- 373-379
      else match r.out with
        | .null _ => .error .assertFail                                             -- 382
        | .buf pt => dispatch L f.key c call pt r.written

/-- `S2ACrypter::UpdateOutboundKey` (s2a_crypter.cc:484). -/
def updateOutboundKey (L : Lib) (f : KeyFault) (c : Conn) : Exec (Conn × StatusCode) := do
  let (outC, st) ← c.outC.updateKey L f
  return ({ c with outC := outC }, st)

end S2A.Record
