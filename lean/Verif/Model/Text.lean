import Verif.Model.Proxy
import Verif.Model.TextCrypto
/-
What the library says: the lines it passes to the user's logger and the messages of the statuses
it returns.

The functions here are those of Model/Record.lean, Model/Frame.lean and Model/Proxy.lean again,
with these texts as one more result; Lemmas/Text.lean proves that without the texts they are the
same functions.  A text is a `String` with one character per byte of the `std::string`.

The messages of AEAD operations and key derivations are those of Model/TextCrypto.lean: `q` and
`errs` are what the library has in its error queue should an operation fail.  The messages of the
token manager are not modelled: `why` is the message, whatever it is.
-/
namespace S2A

/-- What a call says: the lines passed to the logger, in order, and the message of the status it
returns (empty for success). [`logger_` and `absl::Status`, throughout /repo/src] -/
structure Said where
  log : List String
  message : String
  deriving DecidableEq, Repr

/-- A `std::string` made of bytes, as a text. [e.g. src/handshaker/s2a_proxy.cc:234-239] -/
def textOf (b : Bytes) : String := String.ofList (b.map fun x => Char.ofNat x.toNat)

/-- An error with a text. [e.g. src/handshaker/s2a_util.cc:39-40] -/
def withText (m : String) : Except StatusCode α → Except (StatusCode × String) α
  | .ok a => .ok a
  | .error c => .error (c, m)

namespace Record

/-- `S2ACrypter::Create` (s2a_crypter.cc:192-256). -/
def createT (L : Lib) (fIn fOut : KeyFault) (xIn xOut : LibText) (a : CreateArgs) :
    Exec (Except (StatusCode × String) Conn) :=
  if a.url.isEmpty then .ok (.error (.invalidArgument, "|handshaker_service_url| is empty."))
  else if !a.hasLogger then .ok (.error (.invalidArgument, "|logger| must not be nullptr."))
  else if !a.hasSender then
    .ok (.error (.invalidArgument, "|ticket_sender_function| must not be nullptr."))
  else if a.tlsVersion ≠ .tls1_3 then
    .ok (.error (.invalidArgument, "TLS 1.3 is the only supported TLS version."))
  else do
    match ← HalfConn.createT L fIn xIn a.ciphersuite a.inSequence a.inSecret with
    | .error e => return .error e
    | .ok inC =>
      match ← HalfConn.createT L fOut xOut a.ciphersuite a.outSequence a.outSecret with
      | .error e => return .error e
      | .ok outC =>
        return .ok { connectionId := a.connectionId, url := a.url,
                     localIdentity := a.localIdentity, inC := inC, outC := outC,
                     closeNotify := false, handler := .init, phase := .notReceived,
                     expecting := false, hasFactory := a.hasFactory, sent := [] }

/-- `S2ACrypter::Protect` (s2a_crypter.cc:258-331). -/
def protectT (L : Lib) (f : EvpFault) (q : String) (c : Conn) (rt : RecordType)
    (plaintext : List Iovec) (record : Iovec) : Exec ((Conn × Result) × Said) :=
  let n := totalLen plaintext
  if n > kMaxPlaintext then
    let error := "|plaintext| contains more bytes than are allowed in a single TLS 1.3 record."
    .ok ((c, ⟨.failedPrecondition, 0, record, none, none, none⟩), ⟨[error], error⟩)   -- 263-271
  else if record.len < n + c.recordOverhead then
    let error := "|record| is not large enough to hold the TLS 1.3 record built from |plaintext|."
    .ok ((c, ⟨.failedPrecondition, 0, record, none, none, none⟩), ⟨[error], error⟩)   -- 274-281
  else
    let payloadSize := n + 1 + c.outC.tagLength
    match record with
    | .null _ => .error .assertFail
    | .buf rb => do
      let hdr := headerBytes payloadSize
      let rb ← writeAt rb 0 hdr
      match convertRecordType rt with
      | .error e =>
        return ((c, ⟨convertStatus e, 0, .buf rb, none, none, none⟩),                 -- 299-304
          ⟨["Unable to parse TLS record type."], "Unrecognized record type."⟩)
      | .ok t =>
        let payload := plaintext ++ [.buf [t]]
        let rest ← (Iovec.buf rb).slice kHeaderLength (rb.length - kHeaderLength)
        let ((outC, call, r), m) ← c.outC.encryptT L f q [.buf hdr] payload rest
        let c := { c with outC := outC }
        if r.status ≠ .ok then
          return ((c, ⟨convertStatus r.status, 0, .buf (zeros rb.length), call, none, none⟩),
            ⟨["Encryption failure: " ++ m], m⟩)                                        -- 321-328
        else
          return ((c, ⟨.ok, r.written + kHeaderLength,
            .buf (rb.take kHeaderLength ++ r.out.bytes), call, none, none⟩), ⟨[], ""⟩)

/-- The message of a failing `GetStoredTickets` (handshake_message_handler.cc:164-174). -/
def storedTicketsMessage (h : Handler) : String :=
  if h.retrieved then
    "|GetStoredTickets| should not be called after tickets have been retrieved."
  else "|GetStoredTickets| should not be called while waiting to read more ticket bytes."

/-- `RetrieveStoredTicketsAndSendToS2A` (s2a_crypter.cc:547-592), with the lines it logs. -/
def retrieveAndSendT (c : Conn) : Exec (Conn × List String) := do
  let msg := storedTicketsMessage c.handler
  let (h, r) ← c.handler.getStoredTickets
  let c := { c with handler := h }
  match r with
  | .error _ => return (c, ["Retrieving tickets failed: " ++ msg])                     -- 559-562
  | .ok tickets =>
    return ({ c with
      hasFactory := false,
      sent := c.sent ++ [⟨c.url, c.connectionId, c.localIdentity, tickets.map List.flatten,
        c.hasFactory⟩] }, [])

/-- The ticket part of `HandleProcessHandshakeMessageResult` (s2a_crypter.cc:510-540), with the
lines it logs. -/
def handleTicketsT (c : Conn) (r : Handler.Result) : Exec (Conn × List String) :=
  match c.phase with
  | .done =>
    .ok (c, if r.containsTicket then
      ["Received a session ticket from the peer. It is being ignored."] else [])        -- 530-535
  | _ =>
    let c := if r.containsTicket then { c with phase := .receiving } else c
    if r.containsTicket && decide (r.numFull ≥ Handler.kMaxTickets) then do
      let (c, log) ← retrieveAndSendT c
      return ({ c with expecting := false, phase := .done }, log)
    else .ok (c, [])

/-- The message of a failing `ProcessHandshakeMessage` (handshake_message_handler.cc:124-129,
151-153); `h` is the handler afterwards, which still has the message that is to blame. -/
def processMessage (h : Handler) : String :=
  match h.messageType with
  | .ok t =>
    if t = Handler.kKeyUpdateType then "Key update should be the last message in a plaintext."
    else "Unexpected handshake message type."
  | .error _ => "Unexpected handshake message type."

/-- `HandleProcessHandshakeMessageResult` (s2a_crypter.cc:486-545).  `msg` is the message of the
status passed in. -/
def handleResultT (L : Lib) (f : KeyFault) (msg : String) (c : Conn)
    (r : Except StatusCode Handler.Result) :
    Exec ((Conn × StatusCode × Option StatusCode) × Said) :=
  match r with
  | .error e => .ok ((c, e, none), ⟨[], msg⟩)
  | .ok r =>
    let c := { c with expecting := r.expecting }
    if r.containsKeyUpdate then do
      let (inC, st) ← c.inC.updateKey L f
      let c := { c with inC := inC }
      if st ≠ .ok then
        return ((c, .internal, some st), ⟨["Key update failed."], "Key update failed."⟩) -- 504-507
      else
        let (c, log) ← handleTicketsT c r
        return ((c, .ok, some st), ⟨log, ""⟩)
    else do
      let (c, log) ← handleTicketsT c r
      return ((c, .ok, none), ⟨log, ""⟩)

/-- The part of `S2ACrypter::Unprotect` after a successful decryption
(s2a_crypter.cc:381-476). -/
def dispatchT (L : Lib) (f : KeyFault) (c : Conn) (call : Option HalfConn.AeadCall)
    (pt : Bytes) (w : Nat) : Exec ((Conn × Result) × Said) := do
  match ← lastNonzero pt w with
  | none =>
    let error := "TLS 1.3 record does not have record type byte."
    return ((c, ⟨.invalidRecord, 0, .buf pt, call, none, some (pt.take w)⟩), ⟨[error], error⟩)
  | some (n, t) =>
    let zeroed : Iovec := .buf (zeros pt.length)
    if t = kAlert then
      if n < 2 then
        let error := "The TLS 1.3 alert record is too small."
        return ((c, ⟨.invalidRecord, 0, zeroed, call, none, some (pt.take w)⟩), ⟨[error], error⟩)
      else match pt[1]? with
        | none => .error .outOfBounds
        | some level =>
          if level = kCloseNotify then
            let error := "Received close notify alert."
            return (({ c with closeNotify := true },
              ⟨.alertCloseNotify, 0, zeroed, call, none, some (pt.take w)⟩), ⟨[error], error⟩)
          else
            let error := "Received alert of type " ++ toString t.toNat ++ "."           -- 429-430
            return ((c, ⟨.alertOther, 0, zeroed, call, none, some (pt.take w)⟩), ⟨[error], error⟩)
    else if t = kHandshake then
      let (h, r) ← c.handler.process (pt.take n)
      let msg := processMessage h
      let c := { c with handler := h }
      let ((c, st, rekey), said) ← handleResultT L f msg c r
      if st ≠ .ok then
        let error := "Failed to process handshake message result: " ++ said.message      -- 441-446
        return ((c, ⟨.internalError, 0, .buf pt, call, rekey, some (pt.take w)⟩),
          ⟨said.log ++ [error], error⟩)
      else return ((c, ⟨.ok, 0, .buf pt, call, rekey, some (pt.take w)⟩), ⟨said.log, ""⟩)
    else if t = kAppData then
      if c.expecting then
        let error := "Received a non handshake message while expecting a handshake message."
        return ((c, ⟨.invalidRecord, 0, .buf pt, call, none, some (pt.take w)⟩), ⟨[error], error⟩)
      else if c.phase = .receiving then
        let (c, log) ← retrieveAndSendT c
        return (({ c with phase := .done }, ⟨.ok, n, .buf pt, call, none, some (pt.take w)⟩),
          ⟨log, ""⟩)
      else return ((c, ⟨.ok, n, .buf pt, call, none, some (pt.take w)⟩), ⟨[], ""⟩)
    else
      let error := "TLS record type byte " ++ toString t.toNat ++ " is invalid."          -- 470-471
      return ((c, ⟨.invalidRecord, 0, zeroed, call, none, some (pt.take w)⟩), ⟨[error], error⟩)

/-- `S2ACrypter::Unprotect` (s2a_crypter.cc:333-477). -/
def unprotectT (L : Lib) (f : Fault) (q : String) (c : Conn) (header : Iovec)
    (payload : List Iovec) (plaintext : Iovec) : Exec ((Conn × Result) × Said) :=
  if c.closeNotify then
    let error := "Close notify alert has been received. Close the connection."
    .ok ((c, ⟨.alertCloseNotify, 0, plaintext, none, none, none⟩), ⟨[error], error⟩)      -- 336-342
  else
    let recordLength := header.len + totalLen payload
    if recordLength < c.recordOverhead then
      let error := "Did not receive a complete TLS 1.3 record."
      .ok ((c, ⟨.failedPrecondition, 0, plaintext, none, none, none⟩), ⟨[error], error⟩)  -- 346-351
    else if recordLength > c.recordOverhead + kMaxPlaintext then
      let error := "TLS 1.3 record contains more bytes than allowed."
      .ok ((c, ⟨.alertRecordOverflow, 0, plaintext, none, none, none⟩), ⟨[error], error⟩) -- 356-361
    else if !validateHeader header recordLength then
      let error := "TLS 1.3 record header is invalid."
      .ok ((c, ⟨.failedPrecondition, 0, plaintext, none, none, none⟩), ⟨[error], error⟩)  -- 364-369
    else do
      let ((inC, call, r), m) ← c.inC.decryptT L f.evp q [header] payload plaintext
      let c := { c with inC := inC }
      if r.status ≠ .ok then
        let error := "Decryption failed: " ++ m                                           -- 374-376
        let z ← zeroOut r.out
        return ((c, ⟨.internalError, 0, z, call, none, none⟩), ⟨[error], error⟩)
      else match r.out with
        | .null _ => .error .assertFail
        | .buf pt => dispatchT L f.key c call pt r.written

end Record

namespace Frame
open Record (Conn RecordType Code)

/-- `S2AFrameProtector::Create` (s2a_frame_protector.cc:192-220). -/
def createT (L : Lib) (fIn fOut : KeyFault) (xIn xOut : LibText) (o : Options) :
    Exec (Except (StatusCode × String) State) :=
  if !o.hasAllocator || !o.hasDestroy || !o.crypter.hasLogger then
    .ok (.error (.invalidArgument,
      "Failed to create |S2AFrameProtector| because of unexpected nullptr argument."))
  else do
    match ← Record.createT L fIn fOut xIn xOut { o.crypter with hasSender := true } with
    | .error e => return .error e
    | .ok c => return .ok ⟨c, kMaxPlaintext + c.recordOverhead, 0, [], []⟩

/-- A call of `crypter_->Protect`. [src/frame_protector/s2a_frame_protector.cc:292] -/
def State.crypterProtectT (L : Lib) (f : EvpFault) (q : String) (s : State) (pt : List Iovec)
    (record : Iovec) : Exec ((State × Record.Result) × Said) := do
  let ((c, r), said) ← Record.protectT L f q s.conn .applicationData pt record
  return (({ s with conn := c, evs := s.evs ++ [.sealed r] }, r), said)

/-- A call of `crypter_->Unprotect`. [src/frame_protector/s2a_frame_protector.cc:365, 450] -/
def State.crypterUnprotectT (L : Lib) (f : Record.Fault) (q : String) (s : State)
    (header : Bytes) (payload : List Iovec) (out : Iovec) :
    Exec ((State × Record.Result) × Said) := do
  let ((c, r), said) ← Record.unprotectT L f q s.conn (.buf header) payload out
  return (({ s with conn := c, evs := s.evs ++ [.opened r] }, r), said)

/-- The loop of `Protect` (s2a_frame_protector.cc:256-315); `log` are the lines logged by earlier
iterations. -/
def protectLoopT (L : Lib) (f : Nat → EvpFault) (errs : Nat → String) (id : BufId) :
    (fuel i : Nat) → State → (vs : List Iovec) → (on : Nat) → (first : Bool) → (rem idx : Nat) →
    (out : Iovec) → (log : List String) → Exec ((State × StatusCode × Iovec) × Said)
  | 0, _, _, _, _, _, _, _, _, _ => .error .diverges
  | fuel + 1, i, s, vs, on, first, rem, idx, out, log =>
    if first || decide (rem > 0) then do
      let n := if rem < kMaxPlaintext then rem else kMaxPlaintext
      let (pieces, vs, on) ← collect vs on n
      let room ← subSize out.len idx
      let slot ← out.slice idx room
      let ((s, r), said) ← s.crypterProtectT L (f i) (errs i) pieces slot
      let out := out.setBytes (out.bytes.take idx ++ r.out.bytes)
      if r.code ≠ .ok then
        return ((s.destroy id out.len, convertCode r.code, out),
          ⟨log ++ said.log ++ ["Failed to protect: " ++ said.message], said.message⟩)     -- 297-302
      else if r.written ≠ n + s.conn.recordOverhead then
        let error := "Protected an unexpected number of bytes."
        return ((s.destroy id out.len, .internal, out), ⟨log ++ said.log ++ [error], error⟩)
      else
        protectLoopT L f errs id fuel (i + 1) s vs on false (rem - n) (idx + r.written) out
          (log ++ said.log)
    else return ((s, .ok, out), ⟨log, ""⟩)

/-- The non-allocating `Protect` (s2a_frame_protector.cc:243-317). -/
def protectIntoT (L : Lib) (f : Nat → EvpFault) (errs : Nat → String) (s : State) (id : BufId)
    (vs : List Iovec) (out : Iovec) : Exec ((State × StatusCode × Iovec) × Said) :=
  let n := totalLen vs
  protectLoopT L f errs id (n + 2) 0 s vs 0 (decide (n = 0)) n 0 out []

/-- The allocating `Protect` (s2a_frame_protector.cc:233-241). -/
def protectT (L : Lib) (A : Allocator) (f : Nat → EvpFault) (errs : Nat → String) (s : State)
    (vs : List Iovec) : Exec ((State × Result) × Said) := do
  let (s, id, buf) := s.alloc A (numberBytesToProtect s (totalLen vs))
  let ((s, st, out), said) ← protectIntoT L f errs s id vs buf
  if st ≠ .ok then return ((s.destroy id out.len, ⟨st, []⟩), said)
  else return ((s, ⟨.ok, [(id, out.bytes)]⟩), ⟨said.log, ""⟩)

/-- `ComputeTlsRecordSize` (s2a_frame_protector.cc:99-139): the message of the error. -/
def readHeaderT : (k i : Nat) → (vs : List Iovec) → (on : Nat) →
    Exec (Except (StatusCode × String) (Bytes × List Iovec × Nat))
  | 0, _, vs, on => .ok (.ok ([], vs, on))
  | _ + 1, _, [], _ =>
    .ok (.error (.failedPrecondition, "|vecs| is too small to hold TLS record header."))  -- 101-102
  | k + 1, i, v :: vs, on =>
    match v with
    | .null _ => .error .assertFail
    | .buf _ => do
      let b ← v.byteAt on
      if !headerByteOk i b then
        return .error (.failedPrecondition, "TLS record header is incorrectly formatted.") -- 110-119
      else
        let (vs, on) := advance v vs (on + 1)
        match ← readHeaderT k (i + 1) vs on with
        | .error e => return .error e
        | .ok (h, vs, on) => return .ok (b :: h, vs, on)

/-- The message of a failing `IsolateTlsPayload` (s2a_frame_protector.cc:166-167). -/
def isolateMessage : String := "|vecs| is too small to hold TLS record."

/-- What both `Unprotect` methods answer to too few bytes
(s2a_frame_protector.cc:323-324, 382-383). -/
def tooSmall : String := "|protected_bytes| is too small to contain a TLS record."

/-- The non-allocating `Unprotect` (s2a_frame_protector.cc:319-377). -/
def unprotectIntoT (L : Lib) (f : Record.Fault) (q : String) (s : State) (vs : List Iovec)
    (out : Iovec) : Exec ((State × StatusCode × Nat × Iovec) × Said) :=
  if numberBytesToUnprotect s (totalLen vs) = 0 then
    .ok ((s, .failedPrecondition, out.len, out), ⟨[], tooSmall⟩)                         -- 322-325
  else do
    match ← readHeaderT kHeaderLength 0 vs 0 with
    | .error (e, m) =>
      return ((s, e, 0, out), ⟨["Failed to compute TLS record size: " ++ m], m⟩)         -- 334-338
    | .ok (header, vs, on) =>
      match ← isolate vs on (payloadSize header) with
      | .error e =>
        return ((s, e, 0, out),
          ⟨["Failed to isolate TLS payload: " ++ isolateMessage], isolateMessage⟩)       -- 354-358
      | .ok (payload, _, _) =>
        let ((s, r), said) ← s.crypterUnprotectT L f q header payload out
        if r.code ≠ .ok then
          return ((s, convertCode r.code, 0, r.out),
            ⟨said.log ++ ["Failed to unprotect bytes from peer."], said.message⟩)        -- 369-373
        else return ((s, .ok, r.written, r.out), ⟨said.log, ""⟩)

/-- The loop of the allocating `Unprotect` (s2a_frame_protector.cc:394-465); `log` are the lines
logged by earlier iterations. -/
def unprotectLoopT (L : Lib) (A : Allocator) (f : Nat → Record.Fault) (errs : Nat → String) :
    (fuel i : Nat) → State → (vs : List Iovec) → (on rem : Nat) → (done : List (BufId × Bytes)) →
    (log : List String) → Exec ((State × Result) × Said)
  | 0, _, _, _, _, _, _, _ => .error .diverges
  | fuel + 1, i, s, vs, on, rem, done, log =>
    if rem ≥ s.conn.recordOverhead then do
      match ← readHeaderT kHeaderLength 0 vs on with
      | .error (e, m) =>
        return ((s, ⟨e, []⟩), ⟨log ++ ["Failed to compute TLS record size: " ++ m], m⟩)  -- 407-410
      | .ok (header, vs, on) =>
        let size := payloadSize header
        match ← isolate vs on size with
        | .error e =>
          return ((s, ⟨e, []⟩),
            ⟨log ++ ["Failed to isolate TLS payload: " ++ isolateMessage], isolateMessage⟩) -- 431-434
        | .ok (payload, vs, on) =>
          let (s, id, buf) := s.alloc A size
          let ((s, r), said) ← s.crypterUnprotectT L (f i) (errs i) header payload buf
          if r.code ≠ .ok then
            let error := "Failed to unprotect bytes from peer: " ++ said.message         -- 453-460
            return (((s.destroy id buf.len).destroyAll done, ⟨convertCode r.code, []⟩),
              ⟨log ++ said.log ++ [error], error⟩)
          else do
            let rem ← subSize rem (kHeaderLength + size)
            unprotectLoopT L A f errs fuel (i + 1) s vs on rem
              (done ++ [(id, r.out.bytes.take r.written)]) (log ++ said.log)
    else return ((s, ⟨.ok, done⟩), ⟨log, ""⟩)

/-- The allocating `Unprotect` (s2a_frame_protector.cc:379-467). -/
def unprotectT (L : Lib) (A : Allocator) (f : Nat → Record.Fault) (errs : Nat → String) (s : State)
    (vs : List Iovec) : Exec ((State × Result) × Said) :=
  let n := totalLen vs
  if n < s.conn.recordOverhead then .ok ((s, ⟨.failedPrecondition, []⟩), ⟨[], tooSmall⟩)  -- 381-385
  else unprotectLoopT L A f errs (n + 1) 0 s vs 0 n [] []

/-- One call (include/s2a_frame_protector.h:63-140); `errs i` is the error queue of the library
should the AEAD operation on the `i`-th record of the call fail. -/
def stepT (L : Lib) (A : Allocator) (errs : Nat → String) (s : State) :
    Op → Exec ((State × Event) × Said)
  | .protect f vs => do
    let ((s, r), said) ← protectT L A f errs s vs
    return ((s, .result r), said)
  | .protectInto f vs out => do
    let ((s, st, out), said) ← protectIntoT L f errs s .caller vs out
    return ((s, .status st out.len out), said)
  | .unprotect f vs => do
    let ((s, r), said) ← unprotectT L A f errs s vs
    return ((s, .result r), said)
  | .unprotectInto f vs out => do
    let ((s, st, len, out), said) ← unprotectIntoT L f (errs 0) s vs out
    return ((s, .status st len out), said)

/-- A history of calls (the user of include/s2a_frame_protector.h), each with the error queues
of the library during it. -/
def runT (L : Lib) (A : Allocator) : State → List (Op × (Nat → String)) →
    Exec (State × List (Event × Said))
  | s, [] => .ok (s, [])
  | s, (op, errs) :: ops => do
    let ((s, e), said) ← stepT L A errs s op
    let (s, es) ← runT L A s ops
    return (s, (e, said) :: es)

end Frame

namespace Proxy
open S2A.Proto S2A.Util

/-- The lines `PopulateTokenCache` logs for the questions it asked (s2a_proxy.cc:138-139, 150-151,
162-163), from the `n`-th on; `why n` is the message of the `n`-th answer, should it be an
error. -/
def askedLog (why : Nat → String) : Nat → Asked → List String
  | _, [] => []
  | n, (_, .ok _) :: qs => askedLog why (n + 1) qs
  | n, (some _, .error _) :: qs =>
    ("Unable to retrieve access token: " ++ why n) :: askedLog why (n + 1) qs
  | n, (none, .error _) :: qs =>
    ("Unable to retrieve default access token: " ++ why n) :: askedLog why (n + 1) qs

/-- The lines `PopulateTokenCache` logs (s2a_proxy.cc:111-168). -/
def populateLog (why : Nat → String) (e : Env) (s : State) : List String :=
  if !s.hasTokenManager then ["No access token manager is registered with |S2AProxy|."]
  else askedLog why 0 (populate e s).2

/-- The lines logged while the tokens are attached (s2a_proxy.cc:521-526, 672-677, 741-746): the
value of `IdentityType::NONE` is 0. -/
def attachLog (tokens : List (Identity × Bytes)) : List String :=
  tokens.flatMap fun t => match t.1.type with
    | .none => ["Encountered unknown identity type 0 when trying to attach access token."]
    | _ => []

/-- Attaching the tokens and serialising (s2a_proxy.cc:490-545, 641-696, 711-765); `error` is
the text for a failing serialisation. -/
def finishRequestT (why : Nat → String) (e : Env) (s : State) (kind : ReqKind) (error : String) :
    (State × Status × Asked) × Said :=
  let log := populateLog why e s
  let (s, asked) := populate e s
  let log := log ++ attachLog (e.orderTokens s.cache)
  if e.serializeFails then ((s, .fail .internal, asked), ⟨log ++ [error], error⟩)
  else
    let req : SessionReq := ⟨kind, (e.orderTokens s.cache).map mechanism⟩
    ((s, ⟨.ok, 0, some req.serialize⟩, asked), ⟨log, ""⟩)

/-- The part of the client start request taken from the options (s2a_proxy.cc:366-488), with the
messages of the errors (s2a_util.cc:39-40, 54-55; s2a_proxy.cc:444, 459, 482). -/
def clientStartT (e : Env) (s : State) : Except (StatusCode × String) ClientStart := do
  let minV ← withText "Unsupported TLS version." (tlsVersionToProto s.options.minTlsVersion)
  let maxV ← withText "Unsupported TLS version." (tlsVersionToProto s.options.maxTlsVersion)
  let cs ← withText "Unsupported ciphersuite." (s.options.ciphersuites.mapM ciphersuiteToProto)
  let targets ← withText "Unsupported identity format." (convertIds (e.orderIds s.options.targets))
  if s.options.locals.length > 1 then
    .error (.failedPrecondition, "Client should have at most 1 local identity.")
  else
    let li ← withText "Unsupported identity format." (convertIds s.options.locals)
    .ok { applicationProtocols := [cstr s.applicationProtocol]
          minTlsVersion := minV
          maxTlsVersion := maxV
          ciphersuites := cs
          targetIdentities := targets
          localIdentity := li.head?
          targetName := cstr s.targetHostname }

/-- `GetClientStart` (s2a_proxy.cc:365-545). -/
def getClientStartT (why : Nat → String) (e : Env) (s : State) : (State × Status × Asked) × Said :=
  match clientStartT e s with
  | .error (c, m) => ((s, .fail c, []), ⟨[m], m⟩)
  | .ok m =>
    finishRequestT why e s (.clientStart m) "Error when serializing |ClientSessionStartReq|."

/-- The part of the server start request taken from the options and the bytes from the peer
(s2a_proxy.cc:548-638), with the messages of the errors. -/
def serverStartT (e : Env) (s : State) (bytes : Option Bytes) :
    Except (StatusCode × String) ServerStart := do
  let minV ← withText "Unsupported TLS version." (tlsVersionToProto s.options.minTlsVersion)
  let maxV ← withText "Unsupported TLS version." (tlsVersionToProto s.options.maxTlsVersion)
  let cs ← withText "Unsupported ciphersuite." (s.options.ciphersuites.mapM ciphersuiteToProto)
  let locals ← withText "Unsupported identity format." (convertIds (e.orderIds s.options.locals))
  .ok { applicationProtocols := [cstr s.applicationProtocol]
        minTlsVersion := minV
        maxTlsVersion := maxV
        ciphersuites := cs
        localIdentities := locals
        inBytes := bytes.getD [] }

/-- `GetServerStart` (s2a_proxy.cc:547-696). -/
def getServerStartT (why : Nat → String) (e : Env) (s : State) (bytes : Option Bytes) :
    (State × Status × Asked) × Said :=
  match serverStartT e s bytes with
  | .error (c, m) => ((s, .fail c, []), ⟨[m], m⟩)
  | .ok m =>
    finishRequestT why e s (.serverStart m) "Error when serializing |ServerSessionStartReq|."

/-- `GetNext` (s2a_proxy.cc:698-765). -/
def getNextT (why : Nat → String) (e : Env) (s : State) (bytes : Option Bytes) :
    (State × Status × Asked) × Said :=
  finishRequestT why e s (.next ⟨bytes.getD []⟩) "Error when serializing |SessionNextReq|."

/-- `GetBytesForS2A` (s2a_proxy.cc:170-202). -/
def getBytesForS2AT (why : Nat → String) (e : Env) (s : State) (bytes : Option Bytes) :
    (State × Status × Asked) × Said :=
  if s.first then
    if s.isClient && (bytes.getD []) != [] then
      let error := "Handshake has not begun, not expecting bytes."
      ((s, .fail .failedPrecondition, []), ⟨[error], error⟩)
    else
      let ((s, st, asked), said) :=
        if s.isClient then getClientStartT why e s else getServerStartT why e s bytes
      ((if st.code = .ok then { s with first := false } else s, st, asked), said)
  else if bytes.getD [] == [] then
    let error := "Handshake requires bytes from peer."
    ((s, .fail .failedPrecondition, []), ⟨[error], error⟩)
  else getNextT why e s bytes

/-- The part of `GetBytesForPeer` for a response with a result (s2a_proxy.cc:258-353). -/
def handleResultT (s : State) (r : SessionResult) : (State × Option StatusCode) × Said :=
  match r.state with
  | none =>
    let error := "|s2a_proto_SessionResult| is invalid."
    ((s, some .invalidArgument), ⟨[error], error⟩)
  | some st =>
    let s := { s with result := some HsResult.fresh }
    match tlsVersionFromProto st.tlsVersion with
    | .error c =>
      let m := "Unsupported TLS version."
      ((s, some c), ⟨["Error parsing TLS version from |s2a_proto_SessionResult|: " ++ m], m⟩)
    | .ok v =>
      let s := { s with result := some { HsResult.fresh with tlsVersion := v } }
      match ciphersuiteFromProto st.ciphersuite with
      | .error c =>
        let m := "Unsupported ciphersuite."
        ((s, some c), ⟨["Error parsing ciphersuite from |s2a_proto_SessionResult|: " ++ m], m⟩)
      | .ok cs =>
        let res : HsResult :=
          { HsResult.fresh with
            tlsVersion := v, ciphersuite := cs, inSecret := st.inKey, outSecret := st.outKey,
            inSequence := .ofNat st.inSequence, outSequence := .ofNat st.outSequence }
        let log := match r.peerIdentity with
          | none => ["No peer identity set in |s2a_proto_SessionResult|."]                -- 327-329
          | some _ => []
        match r.localIdentity with
        | none =>
          let error := "No local identity set in |s2a_proto_SessionResult|."
          (({ s with result := some res }, some .internal), ⟨log ++ [error], error⟩)
        | some li =>
          (({ s with
             result := some { res with
               localIdentity := identityFromProto (some li)
               connectionId := .ofNat st.connectionId }
             context := some
               { applicationProtocol := r.applicationProtocol
                 tlsVersion := v
                 ciphersuite := cs
                 peerIdentity := identityFromProto r.peerIdentity
                 localIdentity := identityFromProto (some li)
                 peerCertFingerprint := r.peerCertFingerprint
                 localCertFingerprint := r.localCertFingerprint
                 isHandshakeResumed := st.isHandshakeResumed } }, none), ⟨log, ""⟩)

/-- `GetBytesForPeer` (s2a_proxy.cc:204-363). -/
def getBytesForPeerT (dec : Bytes → Option SessionResp) (s : State) (bytes : Option Bytes) :
    (State × Status) × Said :=
  if bytes.getD [] == [] then
    let error := "Need bytes from S2A."
    ((s, .fail .failedPrecondition), ⟨[error], error⟩)
  else match dec (bytes.getD []) with
    | none =>
      let error := "Deserializing response from the S2A failed."
      ((s, .fail .internal), ⟨[error], error⟩)
    | some resp =>
      match resp.status with
      | none => ((s, .fail .internal), ⟨[""], ""⟩)                                        -- 232-243
      | some status =>
        if status.code ≠ 0 then
          let error := "Error from the S2A: " ++ textOf status.details
          ((s, .fail .internal), ⟨[error], error⟩)
        else
          let s := match resp.localIdentity with
            | some i => { s with selected := some (identityFromProto (some i)) }
            | none => s
          match resp.result with
          | none => ((s, ⟨.ok, resp.bytesConsumed, some resp.outFrames⟩), ⟨[], ""⟩)
          | some r =>
            match handleResultT { s with finished := true } r with
            | ((s, some c), said) => ((s, .fail c), said)
            | ((s, none), said) =>
              ((s, ⟨.ok, resp.bytesConsumed, some resp.outFrames⟩), ⟨said.log, ""⟩)

/-- `CreateFrameProtector` (s2a_proxy.cc:784-807).  The result of `Frame.createT` is split into
the result and the message. -/
def createFrameProtectorT (L : Lib) (fIn fOut : KeyFault) (xIn xOut : LibText) (s : State) :
    Exec ((State × Except StatusCode Frame.State) × Said) :=
  if !s.finished then
    .ok ((s, .error .failedPrecondition),
      ⟨["Handshake is not finished."], "Handshake is not finished."⟩)
  else match s.result with
    | none => .error .nullDeref
    | some r => do
      match ← Frame.createT L fIn fOut xIn xOut (frameOptions s r) with
      | .ok p => return (({ s with hasFactory := false }, .ok p), ⟨[], ""⟩)
      | .error (c, m) => return (({ s with hasFactory := false }, .error c), ⟨[], m⟩)

/-- `GetS2AContext` (s2a_proxy.cc:809-816). -/
def getS2AContextT (s : State) : (State × Except StatusCode (Option Context)) × Said :=
  if !s.finished then
    ((s, .error .failedPrecondition),
      ⟨["Handshake is not finished."], "Handshake is not finished."⟩)
  else (({ s with context := none }, .ok s.context), ⟨[], ""⟩)

/-- One call. [include/s2a_proxy.h:63-90].  `why n` is the message of the `n`-th answer of the
token manager, should it be an error; for `CreateFrameProtector` `xIn` and `xOut` are what the
library contributes to the messages of failing key derivations for the two directions. -/
def stepT (L : Lib) (why : Nat → String) (xIn xOut : LibText) (s : State) :
    Op → Exec ((State × Event) × Said)
  | .forS2A e bytes =>
    let ((s, st, asked), said) := getBytesForS2AT why e s bytes
    .ok ((s, .forS2A bytes st asked), said)
  | .forPeer dec bytes =>
    let ((s, st), said) := getBytesForPeerT dec s bytes
    .ok ((s, .forPeer (response dec bytes) st), said)
  | .isFinished => .ok ((s, .isFinished (isHandshakeFinished s)), ⟨[], ""⟩)
  | .createFrameProtector fIn fOut => do
    let ((s, p), said) ← createFrameProtectorT L fIn fOut xIn xOut s
    return ((s, .createFrameProtector p), said)
  | .getContext =>
    let ((s, c), said) := getS2AContextT s
    .ok ((s, .getContext c), said)

/-- What a call meets besides its arguments: the messages of the token manager's errors, and what
the library contributes to those of failing key derivations. [the user of include/s2a_proxy.h] -/
structure Texts where
  why : Nat → String
  xIn : LibText
  xOut : LibText

/-- A history of calls, with their texts. [the user of include/s2a_proxy.h] -/
def runT (L : Lib) : State → List (Op × Texts) → Exec (State × List (Event × Said))
  | s, [] => .ok (s, [])
  | s, (op, x) :: ops => do
    let ((s, e), said) ← stepT L x.why x.xIn x.xOut s op
    let (s, es) ← runT L s ops
    return (s, (e, said) :: es)

end Proxy
end S2A
