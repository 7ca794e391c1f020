import Verif.Model.Base
/-
src/record_protocol/handshake_message_handler.{h,cc}
-/
namespace S2A

/-- State of `HandshakeMessageHandler` (handshake_message_handler.h:144-167).
`fragments` is `*message_fragments_` (never null), `fullTickets` is `full_tickets_` with
`none` for the null pointer, `inData` says that `state_` is `READ_DATA`. -/
structure Handler where
  fragments : List Bytes
  fullTickets : Option (List (List Bytes))
  numFull : Nat
  retrieved : Bool
  dataExp : Nat
  hdrExp : Nat
  inData : Bool
  deriving DecidableEq, Repr

namespace Handler

/-- handshake_message_handler.h:32-41. -/
abbrev kHeaderLen : Nat := 4
/-- Constant (src/record_protocol/handshake_message_handler.h:35). -/
abbrev kTicketType : UInt8 := 0x04
/-- Constant (src/record_protocol/handshake_message_handler.h:36). -/
abbrev kKeyUpdateType : UInt8 := 0x18
/-- Constant (src/record_protocol/handshake_message_handler.h:41). -/
abbrev kMaxTickets : Nat := 5
/-- handshake_message_handler.cc:40. -/
abbrev kInvalidKeyUpdateType : UInt8 := 0xff

/-- The constructor (handshake_message_handler.cc:44-47) with the default member
initialisers (handshake_message_handler.h:151-167). -/
def init : Handler :=
  { fragments := [], fullTickets := some [], numFull := 0, retrieved := false, dataExp := 0,
    hdrExp := kHeaderLen, inData := false }

/-- `Result` (handshake_message_handler.h:58-77). -/
structure Result where
  expecting : Bool
  containsKeyUpdate : Bool
  keyUpdateType : UInt8
  containsTicket : Bool
  numFull : Nat
  deriving DecidableEq, Repr

/-- `IgnoreFutureTickets` (handshake_message_handler.cc:262-265). -/
def ignoreFuture (h : Handler) : Bool := h.retrieved || decide (h.numFull ≥ kMaxTickets)

/-- `ExpectingToReadMoreBytes` (handshake_message_handler.cc:258-260). -/
def expectingMore (h : Handler) : Bool := !h.fragments.isEmpty

/-- `GetMessageType` (handshake_message_handler.cc:235-242): first byte of the first
fragment; indexing an empty vector is undefined. -/
def messageType (h : Handler) : Exec UInt8 :=
  match h.fragments with
  | (b :: _) :: _ => .ok b
  | _ => .error .outOfBounds

/-- `GetKeyUpdateType` (handshake_message_handler.cc:244-256): the fifth byte, or an
invalid value. -/
def keyUpdateType (h : Handler) : UInt8 :=
  match h.fragments.flatten[4]? with
  | some b => b
  | none => kInvalidKeyUpdateType

/-- Inner loop of `GetMessageDataSizeFromHeader` over the bytes of one fragment
(handshake_message_handler.cc:218-230).  State: `at_byte`, `shift_by`,
`message_data_size`.  The result fits in 32 bits, it is kept as `Nat`. -/
def sizeInner : Bytes → Nat → Int → Nat → Exec (Nat × Int × Nat)
  | [], atByte, sh, acc => .ok (atByte, sh, acc)
  | b :: bs, atByte, sh, acc =>
    if atByte = 1 then sizeInner bs (atByte + 1) sh acc
    else if sh < 0 then .error .negativeShift
    else
      let acc' := acc ||| (b.toNat <<< sh.toNat)
      if atByte + 1 > kHeaderLen then .ok (atByte + 1, sh - 8, acc')   -- break
      else sizeInner bs (atByte + 1) (sh - 8) acc'

/-- Outer loop of `GetMessageDataSizeFromHeader` (handshake_message_handler.cc:217-231):
the `break` above leaves only the inner loop. -/
def sizeOuter : List Bytes → Nat → Int → Nat → Exec Nat
  | [], _, _, acc => .ok acc
  | f :: fs, atByte, sh, acc => do
    let (a, s, c) ← sizeInner f atByte sh acc
    sizeOuter fs a s c

/-- `GetMessageDataSizeFromHeader` (handshake_message_handler.cc:208-233). -/
def dataSizeFromHeader (h : Handler) : Exec Nat := sizeOuter h.fragments 1 16 0

/-- `StoreMessageFragment` (handshake_message_handler.cc:182-199); `bytes` are the
`bytes_to_read` bytes at `plaintext + at_byte`. -/
def store (h : Handler) (bytes : Bytes) : Exec Handler := do
  if h.ignoreFuture && h.inData then
    let t ← h.messageType
    if t = kTicketType then return h
  return { h with fragments := h.fragments ++ [bytes] }

/-- `AddTicketToStore` (handshake_message_handler.cc:201-206). -/
def addTicket (h : Handler) : Exec Handler :=
  match h.fullTickets with
  | none => .error .assertFail
  | some ts => .ok { h with fullTickets := some (ts ++ [h.fragments]), numFull := h.numFull + 1,
                            fragments := [] }

/-- Step 1 of one loop iteration (handshake_message_handler.cc:70-115).  `rest` are the
plaintext bytes from `at_byte` on.  Returns the new state, the bytes left and
`full_hs_message_read`. -/
def readFragment (h : Handler) (rest : Bytes) : Exec (Handler × Bytes × Bool) :=
  if h.inData = false then
    if h.hdrExp ≤ rest.length then do
      let n := h.hdrExp
      let h ← h.store (rest.take n)
      let h := { h with hdrExp := kHeaderLen }
      let sz ← h.dataSizeFromHeader
      let h := { h with dataExp := sz, inData := decide (sz > 0) }
      return (h, rest.drop n, false)
    else do
      let h ← h.store rest
      return ({ h with hdrExp := h.hdrExp - rest.length }, [], false)
  else
    if h.dataExp ≤ rest.length then do
      let n := h.dataExp
      let h ← h.store (rest.take n)
      return ({ h with dataExp := 0, inData := false }, rest.drop n, true)
    else do
      let h ← h.store rest
      return ({ h with dataExp := h.dataExp - rest.length }, [], false)

/-- The loop of `ProcessHandshakeMessage` (handshake_message_handler.cc:68-158) on the
bytes from `at_byte` on, with the flags `contains_key_update` and `contains_ticket`.
Every iteration consumes at least one byte, so `fuel` (the number of bytes plus one) is
never used up; running out of it is reported as divergence. -/
def loop : (fuel : Nat) → Handler → (rest : Bytes) → (ku tk : Bool) →
    Exec (Handler × Except StatusCode Result)
  | 0, _, _, _, _ => .error .diverges
  | fuel + 1, h, rest, ku, tk =>
    if rest.isEmpty then                                                   -- line 68, 155-158
      .ok (h, .ok ⟨h.expectingMore, ku, kInvalidKeyUpdateType, tk, h.numFull⟩)
    else do
      let (h, rest, full) ← h.readFragment rest
      let t ← h.messageType                                                -- line 117
      if t = kKeyUpdateType then                                           -- lines 119-137
        if full then
          if !rest.isEmpty then return (h, .error .internal)
          let kut := h.keyUpdateType
          let h := { h with fragments := [] }
          return (h, .ok ⟨h.expectingMore, true, kut, tk, h.numFull⟩)
        else loop fuel h rest true tk
      else if t = kTicketType then                                         -- lines 138-149
        if full then
          let h ← if h.ignoreFuture then pure h else h.addTicket
          loop fuel { h with fragments := [] } rest ku true
        else loop fuel h rest ku true
      else return (h, .error .internal)                                    -- lines 150-152

/-- `ProcessHandshakeMessage` (handshake_message_handler.cc:49-159) on a non-null
buffer. -/
def process (h : Handler) (plaintext : Bytes) : Exec (Handler × Except StatusCode Result) :=
  loop (plaintext.length + 1) h plaintext false false

/-- `GetStoredTickets` (handshake_message_handler.cc:161-180). -/
def getStoredTickets (h : Handler) : Exec (Handler × Except StatusCode (List (List Bytes))) :=
  if h.retrieved then .ok (h, .error .internal)
  else do
    let waiting ← if h.expectingMore then
        (do let t ← h.messageType; return decide (t = kTicketType)) else pure false
    if waiting then return (h, .error .internal)
    match h.fullTickets with
    | none => .error .assertFail
    | some ts =>
      return ({ h with retrieved := true, numFull := 0, fullTickets := none }, .ok ts)

end Handler
end S2A
