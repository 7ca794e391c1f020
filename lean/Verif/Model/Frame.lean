import Verif.Model.RecordHist
/-
src/frame_protector/s2a_frame_protector.cc, include/s2a_frame_protector.h
-/
namespace S2A.Frame
open Record (Conn RecordType Code)

/-- Identity of a buffer: one the caller passed in, or the `i`-th one obtained from
`allocator_`. [src/frame_protector/s2a_frame_protector.cc:234, 448] -/
inductive BufId
  | caller
  | heap (i : Nat)
  deriving DecidableEq, Repr

/-- Calls of the user's `allocator_` and `destroy_` functions.  `destroy` also shows the
`iov_len` of the buffer it was given. [include/s2a_frame_protector.h:39-56] -/
inductive MemEvent
  | alloc (id : BufId) (size : Nat)
  | destroy (id : BufId) (len : Nat)
  deriving DecidableEq, Repr

/-- The allocator (include/s2a_frame_protector.h:53): the buffer its `i`-th call returns when
asked for `n` bytes, with whatever contents. -/
abbrev Allocator := Nat → Nat → Iovec

/-- State of `S2AFrameProtector` (include/s2a_frame_protector.h:149-158).  `next` counts the
allocator calls.  `mem` and `evs` are observations: the allocator and destroy calls so far,
and the results of the calls on the crypter so far.  The mutexes and the logger are not
modelled here (a method is one step; see `Model/Race.lean`). -/
structure State where
  conn : Conn
  maxRecordSize : Nat
  next : Nat
  mem : List MemEvent
  evs : List Record.Event
  deriving DecidableEq, Repr

/-- s2a_frame_protector.cc:45-48. -/
abbrev kAppData : UInt8 := 0x17
/-- Constant (src/frame_protector/s2a_frame_protector.cc:46). -/
abbrev kWireVersion : UInt8 := 0x03
/-- Constant (src/frame_protector/s2a_frame_protector.cc:47). -/
abbrev kHeaderLength : Nat := 5
/-- Constant (src/frame_protector/s2a_frame_protector.cc:48). -/
abbrev kMaxPlaintext : Nat := 16384

/-- `ConvertStatusCode` (s2a_frame_protector.cc:53-68). -/
def convertCode : Code → StatusCode
  | .ok => .ok
  | .failedPrecondition => .failedPrecondition
  | .invalidArgument => .invalidArgument
  | .unknown => .unknown
  | .unimplemented => .unimplemented
  | _ => .internal

/-! ### Walking over buffers

The code walks over a vector of buffers with the index of a buffer and an offset in it.  Here
a cursor is the list of the buffers from that index on, and the offset in its head.  Moving
to the next buffer is dropping the head. -/

/-- Move the cursor `n` bytes on inside the first buffer: to the next buffer if its end is
reached (lines 134-138, 175-185, 279-283). -/
def advance (v : Iovec) (vs : List Iovec) (on : Nat) : List Iovec × Nat :=
  if on ≥ v.len then (vs, 0) else (v :: vs, on)

/-- What the header byte at a position must be (s2a_frame_protector.cc:107-131). -/
def headerByteOk : Nat → UInt8 → Bool
  | 0, b => b == kAppData
  | 1, b => b == kWireVersion
  | 2, b => b == kWireVersion
  | _, _ => true

/-- The loop of `ComputeTlsRecordSize` (s2a_frame_protector.cc:99-139), from `header_index`
`i` with `k` header bytes to go. -/
def readHeader : (k i : Nat) → (vs : List Iovec) → (on : Nat) →
    Exec (Except StatusCode (Bytes × List Iovec × Nat))
  | 0, _, vs, on => .ok (.ok ([], vs, on))
  | _ + 1, _, [], _ => .ok (.error .failedPrecondition)                        -- 100-103
  | k + 1, i, v :: vs, on =>
    match v with
    | .null _ => .error .assertFail                                            -- 104
    | .buf _ => do
      let b ← v.byteAt on                                                      -- 109, 116, 123, 127
      if !headerByteOk i b then return .error .failedPrecondition
      else
        let (vs, on) := advance v vs (on + 1)                                  -- 134-138
        match ← readHeader k (i + 1) vs on with
        | .error e => return .error e
        | .ok (h, vs, on) => return .ok (b :: h, vs, on)

/-- The payload size in a header (s2a_frame_protector.cc:122-127, 140-142), as
`record_size - kTls13RecordHeaderLength`. -/
def payloadSize : Bytes → Nat
  | [_, _, _, b3, b4] => (b3.toNat <<< 8) + b4.toNat
  | _ => 0

/-- The loop of `IsolateTlsPayload` (s2a_frame_protector.cc:164-186) with `bytes_remaining`
to go.  The recursion is on the buffers: when an iteration does not move to the next buffer
it has taken all remaining bytes, so the loop ends. -/
def isolate : (vs : List Iovec) → (on rem : Nat) →
    Exec (Except StatusCode (List Iovec × List Iovec × Nat))
  | vs, on, 0 => .ok (.ok ([], vs, on))
  | [], _, _ + 1 => .ok (.error .failedPrecondition)                           -- 165-168
  | v :: vs, on, rem + 1 =>
    match v with
    | .null _ => .error .assertFail                                            -- 169
    | .buf _ => do
      let left ← subSize v.len on
      let m := min left (rem + 1)                                              -- 171-172
      let piece ← v.slice on m                                                 -- 173
      if m + on = v.len then do
        match ← isolate vs 0 (rem + 1 - m) with
        | .error e => return .error e
        | .ok (ps, vs, on) => return .ok (piece :: ps, vs, on)
      else return .ok ([piece], v :: vs, on + m)

/-- The inner loop of `Protect` (s2a_frame_protector.cc:267-285), which collects the next
`need` bytes.  The recursion is on the buffers, as in `isolate`. -/
def collect : (vs : List Iovec) → (on need : Nat) → Exec (List Iovec × List Iovec × Nat)
  | vs, on, 0 => .ok ([], vs, on)
  | [], _, _ + 1 => .error .assertFail                                         -- 270
  | v :: vs, on, need + 1 => do
    let left ← subSize v.len on
    let m := min left (need + 1)                                               -- 272-274
    let piece ← v.slice on m                                                   -- 275-277
    if on + m ≥ v.len then do                                                  -- 279-283
      let (ps, vs, on) ← collect vs 0 (need + 1 - m)
      return (piece :: ps, vs, on)
    else return ([piece], v :: vs, on + m)

/-! ### Sizes -/

/-- `MaxRecordSize` (s2a_frame_protector.cc:469). -/
def State.maxSize (s : State) : Nat := s.maxRecordSize

/-- `NumberBytesToProtect(size_t)` (s2a_frame_protector.cc:476-489).  The quotient is an
integer below 2^50, so the detour over `double` in `floor` is exact.  The sum is not
wrapped to 64 bits here; see `numberBytesToProtect64`. -/
def numberBytesToProtect (s : State) (n : Nat) : Nat :=
  let records := n / kMaxPlaintext
  let records :=
    if n = 0 ∨ records * kMaxPlaintext ≠ n then records + 1 else records
  n + records * s.conn.recordOverhead

/-- The same with the 64-bit arithmetic of `size_t`.
[src/frame_protector/s2a_frame_protector.cc:476-489] -/
def numberBytesToProtect64 (s : State) (n : UInt64) : UInt64 :=
  let records := n / 16384
  let records := if n = 0 ∨ records * 16384 ≠ n then records + 1 else records
  n + records * UInt64.ofNat s.conn.recordOverhead

/-- `NumberBytesToUnprotect(size_t)` (s2a_frame_protector.cc:496-502). -/
def numberBytesToUnprotect (s : State) (n : Nat) : Nat :=
  if n < s.conn.recordOverhead then 0 else n - kHeaderLength

/-! ### Creation -/

/-- Parameters of `S2AFrameProtector::Create` (include/s2a_frame_protector.h:39-56): those of
the crypter (the ticket sender is always `SendTicketsToS2A`) and whether the callbacks are
there. -/
structure Options where
  crypter : Record.CreateArgs
  hasAllocator : Bool
  hasDestroy : Bool

/-- `S2AFrameProtector::Create` (s2a_frame_protector.cc:192-220) and the constructor
(222-231). -/
def create (L : Lib) (fIn fOut : KeyFault) (o : Options) : Exec (Except StatusCode State) :=
  if !o.hasAllocator || !o.hasDestroy || !o.crypter.hasLogger then
    .ok (.error .invalidArgument)
  else do
    match ← Record.create L fIn fOut { o.crypter with hasSender := true } with
    | .error e => return .error e
    | .ok c => return .ok ⟨c, kMaxPlaintext + c.recordOverhead, 0, [], []⟩

/-! ### Protect -/

/-- A call of `allocator_`. [src/frame_protector/s2a_frame_protector.cc:234, 448] -/
def State.alloc (s : State) (A : Allocator) (n : Nat) : State × BufId × Iovec :=
  ({ s with next := s.next + 1, mem := s.mem ++ [.alloc (.heap s.next) n] }, .heap s.next,
    A s.next n)

/-- A call of `destroy_`. [src/frame_protector/s2a_frame_protector.cc:237, 300, 308, 456, 458] -/
def State.destroy (s : State) (id : BufId) (len : Nat) : State :=
  { s with mem := s.mem ++ [.destroy id len] }

/-- A call of `crypter_->Protect`. [src/frame_protector/s2a_frame_protector.cc:292] -/
def State.crypterProtect (L : Lib) (f : EvpFault) (s : State) (pt : List Iovec) (record : Iovec) :
    Exec (State × Record.Result) := do
  let (c, r) ← Record.protect L f s.conn .applicationData pt record
  return ({ s with conn := c, evs := s.evs ++ [.sealed r] }, r)

/-- A call of `crypter_->Unprotect`. [src/frame_protector/s2a_frame_protector.cc:365, 450] -/
def State.crypterUnprotect (L : Lib) (f : Record.Fault) (s : State) (header : Bytes)
    (payload : List Iovec) (out : Iovec) : Exec (State × Record.Result) := do
  let (c, r) ← Record.unprotect L f s.conn (.buf header) payload out
  return ({ s with conn := c, evs := s.evs ++ [.opened r] }, r)

/-- The loop of `Protect` (s2a_frame_protector.cc:256-315).  `i` counts the iterations (the
library failures `f i` may differ), `first` is `unprotected_bytes_is_initially_empty`, `rem`
is `bytes_remaining`, `idx` is `protected_bytes_index`, `id` and `out` are
`protected_bytes`.  Every iteration but one on an empty input consumes a byte, so `fuel` (the
number of bytes plus two) is never used up; running out of it is reported as divergence. -/
def protectLoop (L : Lib) (f : Nat → EvpFault) (id : BufId) :
    (fuel i : Nat) → State → (vs : List Iovec) → (on : Nat) → (first : Bool) → (rem idx : Nat) →
    (out : Iovec) → Exec (State × StatusCode × Iovec)
  | 0, _, _, _, _, _, _, _, _ => .error .diverges
  | fuel + 1, i, s, vs, on, first, rem, idx, out =>
    if first || decide (rem > 0) then do
      let n := if rem < kMaxPlaintext then rem else kMaxPlaintext               -- 260-263
      let (pieces, vs, on) ← collect vs on n                                    -- 267-285
      let room ← subSize out.len idx
      let slot ← out.slice idx room                                             -- 293-295
      let (s, r) ← s.crypterProtect L (f i) pieces slot
      let out := out.setBytes (out.bytes.take idx ++ r.out.bytes)
      if r.code ≠ .ok then                                                      -- 296-303
        return (s.destroy id out.len, convertCode r.code, out)
      else if r.written ≠ n + s.conn.recordOverhead then                        -- 304-310
        return (s.destroy id out.len, .internal, out)
      else protectLoop L f id fuel (i + 1) s vs on false (rem - n) (idx + r.written) out
    else return (s, .ok, out)

/-- The non-allocating `Protect` (s2a_frame_protector.cc:243-317).  Returns the status and
the memory of `protected_bytes`. -/
def protectInto (L : Lib) (f : Nat → EvpFault) (s : State) (id : BufId) (vs : List Iovec)
    (out : Iovec) : Exec (State × StatusCode × Iovec) :=
  let n := totalLen vs
  protectLoop L f id (n + 2) 0 s vs 0 (decide (n = 0)) n 0 out

/-- `S2AFrameProtector::Result` (include/s2a_frame_protector.h:58-61): the status and the
buffers handed to the caller, each as its identity, its `iov_len` and its bytes up to
`iov_len`. -/
structure Result where
  status : StatusCode
  bytes : List (BufId × Bytes)
  deriving DecidableEq, Repr

/-- The allocating `Protect` (s2a_frame_protector.cc:233-241). -/
def protect (L : Lib) (A : Allocator) (f : Nat → EvpFault) (s : State) (vs : List Iovec) :
    Exec (State × Result) := do
  let (s, id, buf) := s.alloc A (numberBytesToProtect s (totalLen vs))
  let (s, st, out) ← protectInto L f s id vs buf
  if st ≠ .ok then return (s.destroy id out.len, ⟨st, []⟩)                      -- 236-239
  else return (s, ⟨.ok, [(id, out.bytes)]⟩)

/-! ### Unprotect -/

/-- The non-allocating `Unprotect` (s2a_frame_protector.cc:319-377).  Returns the status,
the `iov_len` of `unprotected_bytes` afterwards and its memory. -/
def unprotectInto (L : Lib) (f : Record.Fault) (s : State) (vs : List Iovec) (out : Iovec) :
    Exec (State × StatusCode × Nat × Iovec) :=
  if numberBytesToUnprotect s (totalLen vs) = 0 then
    .ok (s, .failedPrecondition, out.len, out)                                  -- 322-325
  else do
    match ← readHeader kHeaderLength 0 vs 0 with
    | .error e => return (s, e, 0, out)                                         -- 334-338
    | .ok (header, vs, on) =>
      match ← isolate vs on (payloadSize header) with
      | .error e => return (s, e, 0, out)                                       -- 354-358
      | .ok (payload, _, _) =>
        let (s, r) ← s.crypterUnprotect L f header payload out
        if r.code ≠ .ok then return (s, convertCode r.code, 0, r.out)           -- 368-374
        else return (s, .ok, r.written, r.out)

/-- Destroy a list of buffers (s2a_frame_protector.cc:457-459). -/
def State.destroyAll (s : State) : List (BufId × Bytes) → State
  | [] => s
  | (id, b) :: bs => (s.destroy id b.length).destroyAll bs

/-- The loop of the allocating `Unprotect` (s2a_frame_protector.cc:394-465).  `rem` is
`bytes_remaining`, `done` is `plaintext`.  Every iteration consumes a header, so `fuel` (the
number of bytes plus one) is never used up. -/
def unprotectLoop (L : Lib) (A : Allocator) (f : Nat → Record.Fault) :
    (fuel i : Nat) → State → (vs : List Iovec) → (on rem : Nat) → (done : List (BufId × Bytes)) →
    Exec (State × Result)
  | 0, _, _, _, _, _, _ => .error .diverges
  | fuel + 1, i, s, vs, on, rem, done =>
    if rem ≥ s.conn.recordOverhead then do
      match ← readHeader kHeaderLength 0 vs on with
      | .error e => return (s, ⟨e, []⟩)                                         -- 407-410
      | .ok (header, vs, on) =>
        let size := payloadSize header
        match ← isolate vs on size with
        | .error e => return (s, ⟨e, []⟩)                                       -- 431-434
        | .ok (payload, vs, on) =>
          let (s, id, buf) := s.alloc A size                                    -- 448
          let (s, r) ← s.crypterUnprotect L (f i) header payload buf
          if r.code ≠ .ok then                                                  -- 452-461
            return ((s.destroy id buf.len).destroyAll done, ⟨convertCode r.code, []⟩)
          else do
            let rem ← subSize rem (kHeaderLength + size)
            unprotectLoop L A f fuel (i + 1) s vs on rem
              (done ++ [(id, r.out.bytes.take r.written)])
    else return (s, ⟨.ok, done⟩)

/-- The allocating `Unprotect` (s2a_frame_protector.cc:379-467). -/
def unprotect (L : Lib) (A : Allocator) (f : Nat → Record.Fault) (s : State) (vs : List Iovec) :
    Exec (State × Result) :=
  let n := totalLen vs
  if n < s.conn.recordOverhead then .ok (s, ⟨.failedPrecondition, []⟩)          -- 381-385
  else unprotectLoop L A f (n + 1) 0 s vs 0 n []

/-! ### Histories -/

/-- A call on a frame protector, with the library failures during it.
[include/s2a_frame_protector.h:63-140] -/
inductive Op
  | protect (f : Nat → EvpFault) (plaintext : List Iovec)
  | protectInto (f : Nat → EvpFault) (plaintext : List Iovec) (out : Iovec)
  | unprotect (f : Nat → Record.Fault) (protectedBytes : List Iovec)
  | unprotectInto (f : Record.Fault) (protectedBytes : List Iovec) (out : Iovec)

/-- What a call returned. [include/s2a_frame_protector.h:58-61] -/
inductive Event
  | result (r : Result)
  | status (st : StatusCode) (len : Nat) (out : Iovec)
  deriving DecidableEq, Repr

/-- One call (include/s2a_frame_protector.h:63-140). -/
def step (L : Lib) (A : Allocator) (s : State) : Op → Exec (State × Event)
  | .protect f vs => do
    let (s, r) ← protect L A f s vs
    return (s, .result r)
  | .protectInto f vs out => do
    let (s, st, out) ← protectInto L f s .caller vs out
    return (s, .status st out.len out)
  | .unprotect f vs => do
    let (s, r) ← unprotect L A f s vs
    return (s, .result r)
  | .unprotectInto f vs out => do
    let (s, st, len, out) ← unprotectInto L f s vs out
    return (s, .status st len out)

/-- A history of calls (the user of include/s2a_frame_protector.h). -/
def run (L : Lib) (A : Allocator) : State → List Op → Exec (State × List Event)
  | s, [] => .ok (s, [])
  | s, op :: ops => do
    let (s, e) ← step L A s op
    let (s, es) ← run L A s ops
    return (s, e :: es)

end S2A.Frame
