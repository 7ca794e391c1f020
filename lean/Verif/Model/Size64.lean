import Verif.Model.Frame
/-
The same functions with the 64-bit arithmetic of `size_t` for the sums of lengths.  The lengths in
a vector of buffers can add up to 2^64 or more if the buffers share memory.  With BoringSSL,
ChaCha20-Poly1305 copies all bytes of the vector (chacha_poly_crypter_boringssl.cc:88-95, 185-192),
which then throws an exception; that is not modelled.
-/
namespace S2A

/-- The value of a `size_t`. [64-bit targets] -/
def size64 (n : Nat) : Nat := n % 2 ^ 64

/-- The loop of `GetTotalIovecLength` (s2a_frame_protector.cc:70-76, s2a_crypter.cc:98-104) and of
`Decrypt` (aes_gcm_crypter.cc:283-286). -/
def totalLen64 (vs : List Iovec) : Nat := vs.foldl (fun t v => size64 (t + v.len)) 0

namespace Aead

/-- `Decrypt` of the crypters on the EVP interface (aes_gcm_crypter.cc:272-398;
chacha_poly_crypter_openssl.cc:278-404).  The loop only subtracts what it has compared with before
(331-336), so that `total` does not wrap again. -/
def evpDecrypt64 (L : Lib) (f : EvpFault) (alg : Alg) (key nonce : Bytes)
    (aad ciphertextAndTag : List Iovec) (out : Iovec) : Exec Result :=
  if ¬ out.WF then .error .assertFail                                         -- 277-279
  else
    let ob := out.bytes
    let total := totalLen64 ciphertextAndTag                                   -- 283-286
    if total < kTagSize then .ok ⟨.invalidArgument, 0, out⟩                    -- 287-292
    else if nonce.length ≠ kNonceSize then .ok ⟨.invalidArgument, 0, out⟩
    else if f.init then .ok ⟨.internal, 0, out⟩
    else do
      match ← setAad f 0 ⟨alg, key, nonce, [], []⟩ aad with
      | .error e => return ⟨e, 0, out⟩                                         -- 301-304
      | .ok c =>
        match ← decLoop L f 0 c ob 0 ob.length total [] ciphertextAndTag with
        | (ob', .error e) => return ⟨e, 0, out.setBytes ob'⟩
        | (ob', .ok s) =>
          if s.total > kTagSize then                                           -- 367-374
            return ⟨.internal, 0, out.setBytes (zeros ob'.length)⟩
          else
            let tag ← tagAppend [] s.cur                                       -- 377-383
            let tag ← gatherTag tag s.rest                                     -- 384-390
            if tag.length ≠ kTagSize then .error .uninitialized
            else if f.tag then
              return ⟨.internal, 0, out.setBytes (zeros ob'.length)⟩           -- 78-83
            else if f.final || decide (s.ctx.tag L ≠ tag) then
              return ⟨.internal, 0, out.setBytes (zeros ob'.length)⟩           -- 85-89
            else
              let w ← subSize ob.length s.rem                                  -- 396-397
              return ⟨.ok, w, out.setBytes ob'⟩

/-- `S2AAeadCrypter::Decrypt`. [src/crypto/s2a_aead_crypter.h:101]  With BoringSSL see above. -/
def Crypter.decrypt64 (L : Lib) (f : EvpFault) (c : Crypter) (nonce : Bytes)
    (aad ciphertextAndTag : List Iovec) (out : Iovec) : Exec Result :=
  if L.boring && decide (c.alg = .chachaPoly) then
    boringDecrypt L f c.alg c.key nonce aad ciphertextAndTag out
  else evpDecrypt64 L f c.alg c.key nonce aad ciphertextAndTag out

end Aead

/-- `S2AHalfConnection::Decrypt` (s2a_half_connection.cc:186-199). -/
def HalfConn.decrypt64 (L : Lib) (f : EvpFault) (hc : HalfConn) (aad ciphertextAndTag : List Iovec)
    (out : Iovec) : Exec (HalfConn × Option HalfConn.AeadCall × Aead.Result) :=
  if hc.alwaysFail || hc.overflowed then .ok (hc, none, ⟨.internal, 0, out⟩)
  else do
    let (n, hc') ← hc.nonceMask
    let call : HalfConn.AeadCall := ⟨hc.aead.key, n, flat aad, flat ciphertextAndTag⟩
    let r ← hc.aead.decrypt64 L f call.nonce aad ciphertextAndTag out
    return (hc', some call, r)

namespace Record

/-- `S2ACrypter::Protect` (s2a_crypter.cc:258-331).  `Encrypt` adds no lengths up. -/
def protect64 (L : Lib) (f : EvpFault) (c : Conn) (rt : RecordType) (plaintext : List Iovec)
    (record : Iovec) : Exec (Conn × Result) :=
  let n := totalLen64 plaintext
  if n > kMaxPlaintext then .ok (c, ⟨.failedPrecondition, 0, record, none, none, none⟩)  -- 263-271
  else if record.len < n + c.recordOverhead then
    .ok (c, ⟨.failedPrecondition, 0, record, none, none, none⟩)                    -- 274-281
  else
    let payloadSize := n + 1 + c.outC.tagLength                                    -- 284-285
    match record with
    | .null _ => .error .assertFail                                                -- 287
    | .buf rb => do
      let hdr := headerBytes payloadSize
      let rb ← writeAt rb 0 hdr                                                    -- 288-289
      match convertRecordType rt with
      | .error e => return (c, ⟨convertStatus e, 0, .buf rb, none, none, none⟩)    -- 297-305
      | .ok t =>
        let payload := plaintext ++ [.buf [t]]                                     -- 306-312
        let rest ← (Iovec.buf rb).slice kHeaderLength (rb.length - kHeaderLength)
        let (outC, call, r) ← c.outC.encrypt L f [.buf hdr] payload rest           -- 317-320
        let c := { c with outC := outC }
        if r.status ≠ .ok then
          return (c, ⟨convertStatus r.status, 0, .buf (zeros rb.length), call, none, none⟩)
        else
          return (c, ⟨.ok, r.written + kHeaderLength,
            .buf (rb.take kHeaderLength ++ r.out.bytes), call, none, none⟩)

/-- `S2ACrypter::Unprotect` (s2a_crypter.cc:333-477). -/
def unprotect64 (L : Lib) (f : Fault) (c : Conn) (header : Iovec) (payload : List Iovec)
    (plaintext : Iovec) : Exec (Conn × Result) :=
  if c.closeNotify then .ok (c, ⟨.alertCloseNotify, 0, plaintext, none, none, none⟩)    -- 336-342
  else
    let recordLength := size64 (header.len + totalLen64 payload)
    if recordLength < c.recordOverhead then
      .ok (c, ⟨.failedPrecondition, 0, plaintext, none, none, none⟩)                -- 346-351
    else if recordLength > c.recordOverhead + kMaxPlaintext then
      .ok (c, ⟨.alertRecordOverflow, 0, plaintext, none, none, none⟩)               -- 356-361
    else if !validateHeader header recordLength then
      .ok (c, ⟨.failedPrecondition, 0, plaintext, none, none, none⟩)                -- 364-369
    else do
      let (inC, call, r) ← c.inC.decrypt64 L f.evp [header] payload plaintext       -- 371-372
      let c := { c with inC := inC }
      if r.status ≠ .ok then
        let z ← zeroOut r.out
        return (c, ⟨.internalError, 0, z, call, none, none⟩)                        -- 373-379
      else match r.out with
        | .null _ => .error .assertFail                                             -- 382
        | .buf pt => dispatch L f.key c call pt r.written

/-- One call (src/record_protocol/s2a_crypter.h:65-131). -/
def step64 (L : Lib) (c : Conn) : Op → Exec (Conn × Event)
  | .protect f rt pt rec => do
    let (c, r) ← protect64 L f c rt pt rec
    return (c, .sealed r)
  | .unprotect f hdr pl out => do
    let (c, r) ← unprotect64 L f c hdr pl out
    return (c, .opened r)
  | .updateOutboundKey f => do
    let (c, st) ← updateOutboundKey L f c
    return (c, .outboundUpdated st)

/-- A history from a state. [the user of src/record_protocol/s2a_crypter.h] -/
def run64 (L : Lib) : Conn → List Op → Exec (Conn × List Event)
  | c, [] => .ok (c, [])
  | c, op :: ops => do
    let (c, e) ← step64 L c op
    let (c, es) ← run64 L c ops
    return (c, e :: es)

end Record

namespace Frame
open Record (Conn RecordType Code)

/-- A call of `crypter_->Protect`. [src/frame_protector/s2a_frame_protector.cc:292] -/
def State.crypterProtect64 (L : Lib) (f : EvpFault) (s : State) (pt : List Iovec)
    (record : Iovec) : Exec (State × Record.Result) := do
  let (c, r) ← Record.protect64 L f s.conn .applicationData pt record
  return ({ s with conn := c, evs := s.evs ++ [.sealed r] }, r)

/-- A call of `crypter_->Unprotect`. [src/frame_protector/s2a_frame_protector.cc:365, 450] -/
def State.crypterUnprotect64 (L : Lib) (f : Record.Fault) (s : State) (header : Bytes)
    (payload : List Iovec) (out : Iovec) : Exec (State × Record.Result) := do
  let (c, r) ← Record.unprotect64 L f s.conn (.buf header) payload out
  return ({ s with conn := c, evs := s.evs ++ [.opened r] }, r)

/-- The loop of `Protect` (s2a_frame_protector.cc:256-315), as `protectLoop`.  An index in a
buffer never wraps, and `bytes_remaining` is compared before the subtraction (260-263). -/
def protectLoop64 (L : Lib) (f : Nat → EvpFault) (id : BufId) :
    (fuel i : Nat) → State → (vs : List Iovec) → (on : Nat) → (first : Bool) → (rem idx : Nat) →
    (out : Iovec) → Exec (State × StatusCode × Iovec)
  | 0, _, _, _, _, _, _, _, _ => .error .diverges
  | fuel + 1, i, s, vs, on, first, rem, idx, out =>
    if first || decide (rem > 0) then do
      let n := if rem < kMaxPlaintext then rem else kMaxPlaintext               -- 260-263
      let (pieces, vs, on) ← collect vs on n                                    -- 267-285
      let room ← subSize out.len idx
      let slot ← out.slice idx room                                             -- 293-295
      let (s, r) ← s.crypterProtect64 L (f i) pieces slot
      let out := out.setBytes (out.bytes.take idx ++ r.out.bytes)
      if r.code ≠ .ok then                                                      -- 296-303
        return (s.destroy id out.len, convertCode r.code, out)
      else if r.written ≠ n + s.conn.recordOverhead then                        -- 304-310
        return (s.destroy id out.len, .internal, out)
      else protectLoop64 L f id fuel (i + 1) s vs on false (rem - n) (idx + r.written) out
    else return (s, .ok, out)

/-- The non-allocating `Protect` (s2a_frame_protector.cc:243-317). -/
def protectInto64 (L : Lib) (f : Nat → EvpFault) (s : State) (id : BufId) (vs : List Iovec)
    (out : Iovec) : Exec (State × StatusCode × Iovec) :=
  let n := totalLen64 vs
  protectLoop64 L f id (n + 2) 0 s vs 0 (decide (n = 0)) n 0 out

/-- The allocating `Protect` (s2a_frame_protector.cc:233-241). -/
def protect64 (L : Lib) (A : Allocator) (f : Nat → EvpFault) (s : State) (vs : List Iovec) :
    Exec (State × Result) := do
  let (s, id, buf) := s.alloc A (numberBytesToProtect64 s (UInt64.ofNat (totalLen64 vs))).toNat
  let (s, st, out) ← protectInto64 L f s id vs buf
  if st ≠ .ok then return (s.destroy id out.len, ⟨st, []⟩)                      -- 236-239
  else return (s, ⟨.ok, [(id, out.bytes)]⟩)

/-- The non-allocating `Unprotect` (s2a_frame_protector.cc:319-377). -/
def unprotectInto64 (L : Lib) (f : Record.Fault) (s : State) (vs : List Iovec) (out : Iovec) :
    Exec (State × StatusCode × Nat × Iovec) :=
  if numberBytesToUnprotect s (totalLen64 vs) = 0 then
    .ok (s, .failedPrecondition, out.len, out)                                  -- 322-325
  else do
    match ← readHeader kHeaderLength 0 vs 0 with
    | .error e => return (s, e, 0, out)                                         -- 334-338
    | .ok (header, vs, on) =>
      match ← isolate vs on (payloadSize header) with
      | .error e => return (s, e, 0, out)                                       -- 354-358
      | .ok (payload, _, _) =>
        let (s, r) ← s.crypterUnprotect64 L f header payload out
        if r.code ≠ .ok then return (s, convertCode r.code, 0, r.out)           -- 368-374
        else return (s, .ok, r.written, r.out)

/-- The loop of the allocating `Unprotect` (s2a_frame_protector.cc:394-465).  `bytes_remaining`
wraps at line 464 if the record ends beyond the bytes that were counted. -/
def unprotectLoop64 (L : Lib) (A : Allocator) (f : Nat → Record.Fault) :
    (fuel i : Nat) → State → (vs : List Iovec) → (on rem : Nat) → (done : List (BufId × Bytes)) →
    Exec (State × Result)
  | 0, _, _, _, _, _, _ => .error .diverges
  | fuel + 1, i, s, vs, on, rem, done =>
    if rem ≥ s.conn.recordOverhead then do
      match ← readHeader kHeaderLength 0 vs on with
      | .error e => return (s, ⟨e, []⟩)                                         -- 407-410
      | .ok (header, vs, on) =>
        let size := payloadSize header
        match ← isolate vs on size with
        | .error e => return (s, ⟨e, []⟩)                                       -- 431-434
        | .ok (payload, vs, on) =>
          let (s, id, buf) := s.alloc A size                                    -- 448
          let (s, r) ← s.crypterUnprotect64 L (f i) header payload buf
          if r.code ≠ .ok then                                                  -- 452-461
            return ((s.destroy id buf.len).destroyAll done, ⟨convertCode r.code, []⟩)
          else
            unprotectLoop64 L A f fuel (i + 1) s vs on
              (size64 (rem + 2 ^ 64 - (kHeaderLength + size)))                  -- 464
              (done ++ [(id, r.out.bytes.take r.written)])
    else return (s, ⟨.ok, done⟩)

/-- The allocating `Unprotect` (s2a_frame_protector.cc:379-467). -/
def unprotect64 (L : Lib) (A : Allocator) (f : Nat → Record.Fault) (s : State)
    (vs : List Iovec) : Exec (State × Result) :=
  let n := totalLen64 vs
  if n < s.conn.recordOverhead then .ok (s, ⟨.failedPrecondition, []⟩)          -- 381-385
  else unprotectLoop64 L A f (totalLen vs + 1) 0 s vs 0 n []

/-- One call (include/s2a_frame_protector.h:63-140). -/
def step64 (L : Lib) (A : Allocator) (s : State) : Op → Exec (State × Event)
  | .protect f vs => do
    let (s, r) ← protect64 L A f s vs
    return (s, .result r)
  | .protectInto f vs out => do
    let (s, st, out) ← protectInto64 L f s .caller vs out
    return (s, .status st out.len out)
  | .unprotect f vs => do
    let (s, r) ← unprotect64 L A f s vs
    return (s, .result r)
  | .unprotectInto f vs out => do
    let (s, st, len, out) ← unprotectInto64 L f s vs out
    return (s, .status st len out)

/-- A history of calls (the user of include/s2a_frame_protector.h). -/
def run64 (L : Lib) (A : Allocator) : State → List Op → Exec (State × List Event)
  | s, [] => .ok (s, [])
  | s, op :: ops => do
    let (s, e) ← step64 L A s op
    let (s, es) ← run64 L A s ops
    return (s, e :: es)

end Frame
end S2A
