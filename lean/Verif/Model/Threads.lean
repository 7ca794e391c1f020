import Verif.Model.Frame
import Verif.Spec.Nonces
/-
Threads that call methods of one `S2AFrameProtector` (src/frame_protector/s2a_frame_protector.cc)
at the same time.

Each method is written as a program: the steps at which it touches what the threads share (the
mutexes, the user's allocator, the members of the half connections, the other members of the
crypter), with the local computations in between.  Threads are interleaved at these steps.  Reading
members and writing them are separate steps; a step reads or writes the members of one object.
(Model/Race.lean says which of these accesses race in the sense of the C++ memory model: those of
`TagLength` during a key update.)  The calls of `destroy_` are left out: each concerns a buffer of
one call.
-/
namespace S2A.Frame

/-- The half connections of a crypter (src/record_protocol/s2a_crypter.h:152-153).  They also name
the two directions. -/
inductive Half
  | inbound
  | outbound
  deriving DecidableEq, Repr

/-- The mutexes (include/s2a_frame_protector.h:154-157, and `mu_` of each half connection,
src/record_protocol/s2a_half_connection.h:83). -/
inductive Mu
  | protectMu
  | unprotectMu
  | half (h : Half)
  deriving DecidableEq, Repr

/-- The half connection. [src/record_protocol/s2a_crypter.h:152-153] -/
def getHalf (c : Record.Conn) : Half → HalfConn
  | .inbound => c.inC
  | .outbound => c.outC

/-- The crypter with another state of a half connection.
[src/record_protocol/s2a_crypter.h:152-153] -/
def setHalf (c : Record.Conn) : Half → HalfConn → Record.Conn
  | .inbound, hc => { c with inC := hc }
  | .outbound, hc => { c with outC := hc }

/-- Stands for the half connections where only the other members of the crypter are read.
[no counterpart in the code] -/
def noHalf : HalfConn := ⟨.other 0, 0, 0, false, true, [], [], ⟨.aes128gcm, []⟩⟩

/-- The members of the crypter other than the half connections.
[src/record_protocol/s2a_crypter.h:147-185] -/
def own (c : Record.Conn) : Record.Conn := { c with inC := noHalf, outC := noHalf }

/-- What a step does to the crypter. [no counterpart in the code] -/
inductive Act
  /-- Read the members of a half connection. -/
  | readHalf (h : Half)
  /-- Write members of a half connection. -/
  | writeHalf (h : Half) (hc : HalfConn)
  /-- Read the other members of the crypter. -/
  | readOwn
  /-- Write other members of the crypter. -/
  | writeOwn (c : Record.Conn)
  /-- Observation: a call on the crypter gives this result. -/
  | emit (ev : Record.Event)

/-- What the step yields. [no counterpart in the code] -/
def Act.Reply : Act → Type
  | .readHalf _ => HalfConn
  | .readOwn => Record.Conn
  | _ => Unit

/-- What the step yields. [no counterpart in the code] -/
def Act.reply : (a : Act) → Record.Conn → a.Reply
  | .readHalf h, c => getHalf c h
  | .readOwn, c => own c
  | .writeHalf .., _ => ()
  | .writeOwn _, _ => ()
  | .emit _, _ => ()

/-- What the step does to the crypter. [no counterpart in the code] -/
def Act.conn : Act → Record.Conn → Record.Conn
  | .writeHalf h hc, c => setHalf c h hc
  | .writeOwn o, c => { o with inC := c.inC, outC := c.outC }
  | _, c => c

/-- What the step adds to the results of the calls on the crypter. [no counterpart in the code] -/
def Act.evs : Act → List Record.Event
  | .emit ev => [ev]
  | _ => []

/-- A program that yields an `α`. [no counterpart in the code] -/
inductive Prog (α : Type)
  | done (a : α)
  | ub (e : UB)
  /-- Wait for a mutex and lock it. -/
  | acquire (m : Mu) (k : Prog α)
  | release (m : Mu) (k : Prog α)
  /-- `TagLength()` of a half connection, which takes no mutex. -/
  | tag (h : Half) (k : Nat → Prog α)
  /-- `allocator_(n)`. -/
  | alloc (n : Nat) (k : Iovec → Prog α)
  /-- A step on the crypter. -/
  | act (a : Act) (k : a.Reply → Prog α)
  /-- Observation: the key of a half connection is used in an AEAD call, or replaced. -/
  | use (h : Half) (u : Spec.KeyUse) (k : Prog α)

namespace Prog

/-- One program after the other. [no counterpart in the code] -/
def bind {α β : Type} : Prog α → (α → Prog β) → Prog β
  | .done a, k => k a
  | .ub e, _ => .ub e
  | .acquire m p, k => .acquire m (p.bind k)
  | .release m p, k => .release m (p.bind k)
  | .tag h p, k => .tag h fun n => (p n).bind k
  | .alloc n p, k => .alloc n fun v => (p v).bind k
  | .act a p, k => .act a fun r => (p r).bind k
  | .use h u p, k => .use h u (p.bind k)

/-- [no counterpart in the code] -/
instance : Monad Prog where
  pure := .done
  bind := bind

/-- A local computation. [no counterpart in the code] -/
def lift {α : Type} : Exec α → Prog α
  | .ok a => .done a
  | .error e => .ub e

/-- The mutex is held during the program (`absl::MutexLock`).
[src/frame_protector/s2a_frame_protector.cc:255, 393;
src/record_protocol/s2a_half_connection.cc:174, 189, 202] -/
def locked {α : Type} (m : Mu) (p : Prog α) : Prog α :=
  .acquire m (p.bind fun a => .release m (.done a))

/-- Reads the members of a half connection. [no counterpart in the code] -/
def readHalf (h : Half) : Prog HalfConn := .act (.readHalf h) .done

/-- Writes members of a half connection. [no counterpart in the code] -/
def writeHalf (h : Half) (hc : HalfConn) : Prog Unit := .act (.writeHalf h hc) .done

/-- Reads the other members of the crypter. [no counterpart in the code] -/
def readOwn : Prog Record.Conn := .act .readOwn .done

/-- Writes other members of the crypter. [no counterpart in the code] -/
def writeOwn (c : Record.Conn) : Prog Unit := .act (.writeOwn c) .done

end Prog

/-! ### A half connection -/

/-- The AEAD part of `S2AHalfConnection::Encrypt` and `Decrypt`, under the mutex: `aead` is the call
on the AEAD crypter. [src/record_protocol/s2a_half_connection.cc:171-199] -/
def cryptP (h : Half) (aead : Aead.Crypter → Bytes → Exec Aead.Result) (aad data : Bytes)
    (out : Iovec) : Prog (Option HalfConn.AeadCall × Aead.Result) :=
  Prog.locked (.half h) do
    let hc ← Prog.readHalf h
    if hc.alwaysFail || hc.overflowed then return (none, ⟨.internal, 0, out⟩)   -- 176-181
    else do
      let (n, hc) ← Prog.lift hc.nonceMask                                      -- 269-281
      Prog.writeHalf h hc
      let hc ← Prog.readHalf h
      let r ← Prog.lift (aead hc.aead n)
      Prog.use h (.aead hc.aead.key n) (.done ())
      return (some ⟨hc.aead.key, n, aad, data⟩, r)

/-- `S2AHalfConnection::Encrypt` (src/record_protocol/s2a_half_connection.cc:171-184). -/
def encryptP (L : Lib) (f : EvpFault) (h : Half) (aad plaintext : List Iovec) (out : Iovec) :
    Prog (Option HalfConn.AeadCall × Aead.Result) :=
  cryptP h (fun a n => a.encrypt L f n aad plaintext out) (flat aad) (flat plaintext) out

/-- `S2AHalfConnection::Decrypt` (src/record_protocol/s2a_half_connection.cc:186-199). -/
def decryptP (L : Lib) (f : EvpFault) (h : Half) (aad ciphertextAndTag : List Iovec) (out : Iovec) :
    Prog (Option HalfConn.AeadCall × Aead.Result) :=
  cryptP h (fun a n => a.decrypt L f n aad ciphertextAndTag out) (flat aad)
    (flat ciphertextAndTag) out

/-- `S2AHalfConnection::UpdateKey` (src/record_protocol/s2a_half_connection.cc:201-254): each member
is written where the code writes it. -/
def updateKeyP (L : Lib) (f : KeyFault) (h : Half) : Prog StatusCode :=
  Prog.locked (.half h) do
    let hc ← Prog.readHalf h
    let (st, secret) ← Prog.lift (advanceSecret L f.advance hc.cs hc.secret)    -- 205
    let hc := { hc with secret := secret }
    Prog.writeHalf h hc
    if st ≠ .ok then do
      Prog.writeHalf h { hc with alwaysFail := true }
      return st
    else do
      let (st, key) ← Prog.lift (deriveKey L f.key hc.cs hc.secret (zeros hc.keySize))  -- 211-212
      if st ≠ .ok then do
        Prog.writeHalf h { hc with alwaysFail := true }
        return st
      else do
        let (st, nonce) ← Prog.lift (deriveNonce L f.nonce hc.cs hc.secret hc.nonce)    -- 218
        let hc := { hc with nonce := nonce }
        Prog.writeHalf h hc
        if st ≠ .ok then do
          Prog.writeHalf h { hc with alwaysFail := true }
          return st
        else
          match HalfConn.createAead f.create hc.cs key with
          | .error e => do
            Prog.writeHalf h { hc with alwaysFail := true }
            return e
          | .ok a => do
            let hc := { hc with aead := a }
            Prog.writeHalf h hc                                                 -- 244
            Prog.use h .rekey (.done ())
            Prog.writeHalf h { hc with seq := 0, overflowed := false }          -- 251-252
            return .ok

/-! ### The crypter -/

/-- `S2ACrypter::RecordOverhead` (src/record_protocol/s2a_crypter.cc:479-482). -/
def overheadP : Prog Nat := do
  let n ← Prog.tag .inbound .done
  return Record.kHeaderLength + 1 + n

/-- `S2ACrypter::Protect` (src/record_protocol/s2a_crypter.cc:258-331), as `Record.protect`. -/
def sealP (L : Lib) (f : EvpFault) (rt : Record.RecordType) (plaintext : List Iovec)
    (record : Iovec) : Prog Record.Result :=
  let n := totalLen plaintext
  if n > Record.kMaxPlaintext then
    return ⟨.failedPrecondition, 0, record, none, none, none⟩                   -- 263-271
  else do
    let overhead ← overheadP
    if record.len < n + overhead then
      return ⟨.failedPrecondition, 0, record, none, none, none⟩                 -- 274-281
    else do
      let tag ← Prog.tag .outbound .done
      let payloadSize := n + 1 + tag                                            -- 284-285
      match record with
      | .null _ => Prog.ub .assertFail                                          -- 287
      | .buf rb => do
        let hdr := Record.headerBytes payloadSize
        let rb ← Prog.lift (writeAt rb 0 hdr)                                   -- 288-289
        match Record.convertRecordType rt with
        | .error e => return ⟨Record.convertStatus e, 0, .buf rb, none, none, none⟩     -- 297-305
        | .ok t =>
          let payload := plaintext ++ [.buf [t]]                                -- 306-312
          let rest ← Prog.lift
            ((Iovec.buf rb).slice Record.kHeaderLength (rb.length - Record.kHeaderLength))
          let (call, r) ← encryptP L f .outbound [.buf hdr] payload rest        -- 317-320
          if r.status ≠ .ok then
            return ⟨Record.convertStatus r.status, 0, .buf (zeros rb.length), call, none, none⟩
          else
            return ⟨.ok, r.written + Record.kHeaderLength,
              .buf (rb.take Record.kHeaderLength ++ r.out.bytes), call, none, none⟩

/-- `HandleProcessHandshakeMessageResult` (src/record_protocol/s2a_crypter.cc:486-545), as
`Record.handleResult`. -/
def handleResultP (L : Lib) (f : KeyFault) (r : Except StatusCode Handler.Result) :
    Prog (StatusCode × Option StatusCode) :=
  match r with
  | .error e => return (e, none)
  | .ok r => do
    let c ← Prog.readOwn
    Prog.writeOwn { c with expecting := r.expecting }
    if r.containsKeyUpdate then do
      let st ← updateKeyP L f .inbound
      if st ≠ .ok then return (.internal, some st)
      else do
        let c ← Prog.readOwn
        let c ← Prog.lift (Record.handleTickets c r)                            -- 510-540
        Prog.writeOwn c
        return (.ok, some st)
    else do
      let c ← Prog.readOwn
      let c ← Prog.lift (Record.handleTickets c r)
      Prog.writeOwn c
      return (.ok, none)

/-- The part of `S2ACrypter::Unprotect` after a successful decryption
(src/record_protocol/s2a_crypter.cc:381-476), as `Record.dispatch`. -/
def dispatchP (L : Lib) (f : KeyFault) (call : Option HalfConn.AeadCall) (pt : Bytes) (w : Nat) :
    Prog Record.Result := do
  match ← Prog.lift (Record.lastNonzero pt w) with
  | none => return ⟨.invalidRecord, 0, .buf pt, call, none, some (pt.take w)⟩   -- 400-404
  | some (n, t) =>
    let zeroed : Iovec := .buf (zeros pt.length)
    if t = Record.kAlert then                                                   -- 413-435
      if n < 2 then return ⟨.invalidRecord, 0, zeroed, call, none, some (pt.take w)⟩
      else match pt[1]? with
        | none => Prog.ub .outOfBounds
        | some level =>
          if level = Record.kCloseNotify then do
            let c ← Prog.readOwn
            Prog.writeOwn { c with closeNotify := true }
            return ⟨.alertCloseNotify, 0, zeroed, call, none, some (pt.take w)⟩
          else return ⟨.alertOther, 0, zeroed, call, none, some (pt.take w)⟩
    else if t = Record.kHandshake then do                                       -- 436-451
      let c ← Prog.readOwn
      let (h, r) ← Prog.lift (c.handler.process (pt.take n))
      Prog.writeOwn { c with handler := h }
      let (st, rekey) ← handleResultP L f r
      if st ≠ .ok then return ⟨.internalError, 0, .buf pt, call, rekey, some (pt.take w)⟩
      else return ⟨.ok, 0, .buf pt, call, rekey, some (pt.take w)⟩
    else if t = Record.kAppData then do                                         -- 452-468
      let c ← Prog.readOwn
      if c.expecting then return ⟨.invalidRecord, 0, .buf pt, call, none, some (pt.take w)⟩
      else if c.phase = .receiving then do
        let c ← Prog.lift (Record.retrieveAndSend c)
        Prog.writeOwn { c with phase := .done }
        return ⟨.ok, n, .buf pt, call, none, some (pt.take w)⟩
      else return ⟨.ok, n, .buf pt, call, none, some (pt.take w)⟩
    else return ⟨.invalidRecord, 0, zeroed, call, none, some (pt.take w)⟩       -- 469-474

/-- `S2ACrypter::Unprotect` (src/record_protocol/s2a_crypter.cc:333-477), as
`Record.unprotect`. -/
def openP (L : Lib) (f : Record.Fault) (header : Iovec) (payload : List Iovec)
    (plaintext : Iovec) : Prog Record.Result := do
  let c ← Prog.readOwn
  if c.closeNotify then return ⟨.alertCloseNotify, 0, plaintext, none, none, none⟩      -- 336-342
  else do
    let recordLength := header.len + totalLen payload
    let overhead ← overheadP
    if recordLength < overhead then
      return ⟨.failedPrecondition, 0, plaintext, none, none, none⟩              -- 346-351
    else do
      let overhead ← overheadP
      if recordLength > overhead + Record.kMaxPlaintext then
        return ⟨.alertRecordOverflow, 0, plaintext, none, none, none⟩           -- 356-361
      else if !Record.validateHeader header recordLength then
        return ⟨.failedPrecondition, 0, plaintext, none, none, none⟩            -- 364-369
      else do
        let (call, r) ← decryptP L f.evp .inbound [header] payload plaintext    -- 371-372
        if r.status ≠ .ok then do
          let z ← Prog.lift (Record.zeroOut r.out)
          return ⟨.internalError, 0, z, call, none, none⟩                       -- 373-379
        else match r.out with
          | .null _ => Prog.ub .assertFail                                      -- 382
          | .buf pt => dispatchP L f.key call pt r.written

/-- `crypter_->Protect`, with its result observed.
[src/frame_protector/s2a_frame_protector.cc:293-295] -/
def crypterProtectP (L : Lib) (f : EvpFault) (pt : List Iovec) (out : Iovec) :
    Prog Record.Result := do
  let r ← sealP L f .applicationData pt out
  Prog.act (.emit (.sealed r)) fun _ => .done r

/-- `crypter_->Unprotect`, with its result observed.
[src/frame_protector/s2a_frame_protector.cc:366-367, 449-451] -/
def crypterUnprotectP (L : Lib) (f : Record.Fault) (header : Bytes) (payload : List Iovec)
    (out : Iovec) : Prog Record.Result := do
  let r ← openP L f (.buf header) payload out
  Prog.act (.emit (.opened r)) fun _ => .done r

/-! ### The frame protector -/

/-- The loop of `Protect` (s2a_frame_protector.cc:256-315), as `protectLoop`. -/
def protectLoopP (L : Lib) (f : Nat → EvpFault) :
    (fuel i : Nat) → (vs : List Iovec) → (on : Nat) → (first : Bool) → (rem idx : Nat) →
    (out : Iovec) → Prog (StatusCode × Iovec)
  | 0, _, _, _, _, _, _, _ => .ub .diverges
  | fuel + 1, i, vs, on, first, rem, idx, out =>
    if first || decide (rem > 0) then do
      let n := if rem < kMaxPlaintext then rem else kMaxPlaintext               -- 260-263
      let (pieces, vs, on) ← Prog.lift (collect vs on n)                        -- 267-285
      let room ← Prog.lift (subSize out.len idx)
      let slot ← Prog.lift (out.slice idx room)                                 -- 293-295
      let r ← crypterProtectP L (f i) pieces slot
      let out := out.setBytes (out.bytes.take idx ++ r.out.bytes)
      if r.code ≠ .ok then return (convertCode r.code, out)                     -- 296-303
      else do
        let overhead ← overheadP
        if r.written ≠ n + overhead then return (.internal, out)                -- 304-310
        else protectLoopP L f fuel (i + 1) vs on false (rem - n) (idx + r.written) out
    else return (.ok, out)

/-- The non-allocating `Protect` (s2a_frame_protector.cc:243-317). -/
def protectIntoP (L : Lib) (f : Nat → EvpFault) (vs : List Iovec) (out : Iovec) :
    Prog (StatusCode × Iovec) :=
  let n := totalLen vs
  Prog.locked .protectMu (protectLoopP L f (n + 2) 0 vs 0 (decide (n = 0)) n 0 out)  -- 255

/-- `NumberBytesToProtect` (s2a_frame_protector.cc:476-489) with a given overhead. -/
def protectedSize (overhead n : Nat) : Nat :=
  let records := n / kMaxPlaintext
  let records :=
    if n = 0 ∨ records * kMaxPlaintext ≠ n then records + 1 else records
  n + records * overhead

/-- `NumberBytesToUnprotect` (s2a_frame_protector.cc:496-502) with a given overhead. -/
def unprotectedSize (overhead n : Nat) : Nat := if n < overhead then 0 else n - kHeaderLength

/-- The allocating `Protect` (s2a_frame_protector.cc:233-241).  The buffers in results are not
identified here (their identity is `BufId.caller`). -/
def protectP (L : Lib) (f : Nat → EvpFault) (vs : List Iovec) : Prog Result := do
  let overhead ← overheadP
  let buf ← Prog.alloc (protectedSize overhead (totalLen vs)) .done             -- 234
  let (st, out) ← protectIntoP L f vs buf
  if st ≠ .ok then return ⟨st, []⟩ else return ⟨.ok, [(.caller, out.bytes)]⟩    -- 236-240

/-- The non-allocating `Unprotect` (s2a_frame_protector.cc:319-377).  It takes no mutex. -/
def unprotectIntoP (L : Lib) (f : Record.Fault) (vs : List Iovec) (out : Iovec) :
    Prog (StatusCode × Nat × Iovec) := do
  let overhead ← overheadP
  if unprotectedSize overhead (totalLen vs) = 0 then
    return (.failedPrecondition, out.len, out)                                  -- 322-325
  else do
    match ← Prog.lift (readHeader kHeaderLength 0 vs 0) with
    | .error e => return (e, 0, out)                                            -- 334-338
    | .ok (header, vs, on) =>
      match ← Prog.lift (isolate vs on (payloadSize header)) with
      | .error e => return (e, 0, out)                                          -- 354-358
      | .ok (payload, _, _) =>
        let r ← crypterUnprotectP L f header payload out
        if r.code ≠ .ok then return (convertCode r.code, 0, r.out)              -- 368-374
        else return (.ok, r.written, r.out)

/-- The loop of the allocating `Unprotect` (s2a_frame_protector.cc:394-465), as
`unprotectLoop`. -/
def unprotectLoopP (L : Lib) (f : Nat → Record.Fault) :
    (fuel i : Nat) → (vs : List Iovec) → (on rem : Nat) → (done : List (BufId × Bytes)) →
    Prog Result
  | 0, _, _, _, _, _ => .ub .diverges
  | fuel + 1, i, vs, on, rem, done => do
    let overhead ← overheadP
    if rem ≥ overhead then do
      match ← Prog.lift (readHeader kHeaderLength 0 vs on) with
      | .error e => return ⟨e, []⟩                                              -- 407-410
      | .ok (header, vs, on) =>
        let size := payloadSize header
        match ← Prog.lift (isolate vs on size) with
        | .error e => return ⟨e, []⟩                                            -- 431-434
        | .ok (payload, vs, on) =>
          let buf ← Prog.alloc size .done                                       -- 448
          let r ← crypterUnprotectP L (f i) header payload buf
          if r.code ≠ .ok then return ⟨convertCode r.code, []⟩                  -- 452-461
          else do
            let rem ← Prog.lift (subSize rem (kHeaderLength + size))
            unprotectLoopP L f fuel (i + 1) vs on rem
              (done ++ [(.caller, r.out.bytes.take r.written)])
    else return ⟨.ok, done⟩

/-- The allocating `Unprotect` (s2a_frame_protector.cc:379-467). -/
def unprotectP (L : Lib) (f : Nat → Record.Fault) (vs : List Iovec) : Prog Result := do
  let n := totalLen vs
  let overhead ← overheadP
  if n < overhead then return ⟨.failedPrecondition, []⟩                         -- 381-385
  else Prog.locked .unprotectMu (unprotectLoopP L f (n + 1) 0 vs 0 n [])          -- 393

/-- The program of a call (include/s2a_frame_protector.h:63-140). -/
def Op.prog (L : Lib) : Op → Prog Event
  | .protect f vs => do
    let r ← protectP L f vs
    return .result r
  | .protectInto f vs out => do
    let (st, out) ← protectIntoP L f vs out
    return .status st out.len out
  | .unprotect f vs => do
    let r ← unprotectP L f vs
    return .result r
  | .unprotectInto f vs out => do
    let (st, len, out) ← unprotectIntoP L f vs out
    return .status st len out

/-! ### Threads -/

/-- What the threads share, besides the mutexes: the crypter, and the number of calls of the
allocator so far.  `evs` is an observation: the results of the calls on the crypter so far.
[include/s2a_frame_protector.h:149-158] -/
structure Shared where
  conn : Record.Conn
  next : Nat
  evs : List Record.Event
  deriving DecidableEq

/-- Where a thread is: before its `n`-th call, or inside of it.
[the user of include/s2a_frame_protector.h] -/
inductive Where
  | idle (n : Nat)
  | inside (n : Nat) (p : Prog Event)

/-- What can be seen from outside: the `n`-th call of thread `t` begins, and returns.
[observation; no counterpart in the code] -/
inductive Obs (T : Type)
  | invoked (call : T × Nat)
  | returned (call : T × Nat) (ev : Event)
  deriving DecidableEq

/-- A state of threads that use one frame protector.  `log` and `uses` are observations: the calls and
returns, and the uses of keys.
[the user of include/s2a_frame_protector.h] -/
structure Threads (T : Type) where
  shared : Shared
  holder : Mu → Option T
  place : T → Where
  log : List (Obs T)
  uses : List (Half × Spec.KeyUse)

/-- All threads begin. [the user of include/s2a_frame_protector.h] -/
def Threads.init {T : Type} (s : State) : Threads T :=
  ⟨⟨s.conn, s.next, s.evs⟩, fun _ => none, fun _ => .idle 0, [], []⟩

/-- A function changed at one place. [no counterpart in the code] -/
def upd {α β : Type} [DecidableEq α] (f : α → β) (a : α) (b : β) : α → β :=
  fun x => if x = a then b else f x

variable {T : Type} [DecidableEq T]

/-- Thread `t` takes a step, if it can: `calls t` are the calls it makes, one after the other.
[the user of include/s2a_frame_protector.h; absl::Mutex] -/
def Threads.exec (L : Lib) (A : Allocator) (calls : T → List Op) (c : Threads T) (t : T) :
    Exec (Threads T) :=
  let go (n : Nat) (p : Prog Event) := upd c.place t (.inside n p)
  match c.place t with
  | .idle n =>
    match (calls t)[n]? with
    | none => .ok c
    | some op => .ok { c with place := go n (op.prog L), log := c.log ++ [.invoked (t, n)] }
  | .inside n (.done ev) =>
    .ok { c with place := upd c.place t (.idle (n + 1)), log := c.log ++ [.returned (t, n) ev] }
  | .inside _ (.ub e) => .error e
  | .inside n (.acquire m k) =>
    match c.holder m with
    | some _ => .ok c
    | none => .ok { c with place := go n k, holder := upd c.holder m (some t) }
  | .inside n (.release m k) => .ok { c with place := go n k, holder := upd c.holder m none }
  | .inside n (.tag h k) => .ok { c with place := go n (k (getHalf c.shared.conn h).tagLength) }
  | .inside n (.alloc size k) =>
    .ok { c with
      place := go n (k (A c.shared.next size))
      shared := { c.shared with next := c.shared.next + 1 } }
  | .inside n (.act a k) =>
    .ok { c with
      place := go n (k (a.reply c.shared.conn))
      shared := { c.shared with
        conn := a.conn c.shared.conn, evs := c.shared.evs ++ a.evs } }
  | .inside n (.use h u k) => .ok { c with place := go n k, uses := c.uses ++ [(h, u)] }

/-- The uses of the keys of a half connection. [observation; no counterpart in the code] -/
def Threads.keyUses (c : Threads T) (h : Half) : List Spec.KeyUse :=
  (c.uses.filter (·.1 = h)).map (·.2)

/-- A schedule: which thread takes the next step.
[the user of include/s2a_frame_protector.h] -/
def Threads.run (L : Lib) (A : Allocator) (calls : T → List Op) :
    Threads T → List T → Exec (Threads T)
  | c, [] => .ok c
  | c, t :: ts => do
    let c ← c.exec L A calls t
    run L A calls c ts

end S2A.Frame
