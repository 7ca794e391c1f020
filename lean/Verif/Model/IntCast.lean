import Verif.Model.Frame
/-
The conversions between `size_t` and `int` at the calls of the EVP interface, for a 64-bit machine
of either byte order: `static_cast<int>` of a length, and a `size_t` of which the library writes
the first four bytes, because its address is passed as an `int*`.  (By the aliasing rule of C++ the
latter has no defined outcome at all; here it is what happens if the compiler makes nothing of
that.)  Model/Aead.lean has the value that was meant, and an error for lengths of 2^31 or more.
-/
namespace S2A

/-- The byte order of the machine. [src/crypto/aes_gcm_crypter.cc:116, 146, 345] -/
inductive ByteOrder
  | little | big
  deriving DecidableEq, Repr

/-- The four bytes of an `int` that is not negative, in memory.
[src/crypto/aes_gcm_crypter.cc:116, 146, 345] -/
def intBytes : ByteOrder → Nat → Bytes
  | .little, v => [.ofNat v, .ofNat (v / 2 ^ 8), .ofNat (v / 2 ^ 16), .ofNat (v / 2 ^ 24)]
  | .big, v => [.ofNat (v / 2 ^ 24), .ofNat (v / 2 ^ 16), .ofNat (v / 2 ^ 8), .ofNat v]

/-- The number that the bytes of an unsigned integer in memory are.
[src/crypto/aes_gcm_crypter.cc:116, 146, 345] -/
def readSize : ByteOrder → Bytes → Nat
  | .little, bs => bs.foldr (fun b n => b.toNat + 256 * n) 0
  | .big, bs => bs.foldl (fun n b => 256 * n + b.toNat) 0

/-- `size_t x = 0; *reinterpret_cast<int*>(&x) = v;`: the value of `x` afterwards.
[src/crypto/aes_gcm_crypter.cc:114-119, 144-149, 331-353] -/
def throughInt (o : ByteOrder) (v : Nat) : Nat := readSize o (intBytes o v ++ zeros 4)

/-- `static_cast<int>(n)`: the value modulo 2^32, `none` if that is negative.
[src/crypto/aes_gcm_crypter.cc:118, 148, 215, 346] -/
def toInt (n : Nat) : Option Nat := if n % 2 ^ 32 < 2 ^ 31 then some (n % 2 ^ 32) else none

namespace Aead

/-- `SetAadForEncrypt` / `SetAadForDecrypt` (src/crypto/aes_gcm_crypter.cc:100-126, 130-156;
src/crypto/chacha_poly_crypter_openssl.cc has the same two functions).  A negative length is
outside what the library allows. -/
def setAadI (o : ByteOrder) (f : EvpFault) : Nat → Ctx → List Iovec → Exec (Except StatusCode Ctx)
  | _, c, [] => .ok (.ok c)
  | k, c, v :: vs =>
    if v.len = 0 then setAadI o f (k + 1) c vs                                 -- 106-108
    else match v with
      | .null _ => .ok (.error .invalidArgument)                               -- 109-112
      | .buf d =>
        match toInt d.length with                                              -- 118
        | none => .error .intRange
        | some n =>
          if f.aad k then .ok (.error .internal)
          else if throughInt o n ≠ d.length then .ok (.error .internal)        -- 119-123
          else setAadI o f (k + 1) { c with aad := c.aad ++ d.take n } vs

/-- The encryption loop (src/crypto/aes_gcm_crypter.cc:192-231,
src/crypto/chacha_poly_crypter_openssl.cc:202-237).  Here `bytes_written` is an `int`. -/
def encLoopI (L : Lib) (f : EvpFault) : Nat → Ctx → (out : Bytes) → (off rem : Nat) →
    List Iovec → Exec (Bytes × Except StatusCode (Ctx × Nat × Nat))
  | _, c, out, off, rem, [] => .ok (out, .ok (c, off, rem))
  | k, c, out, off, rem, v :: vs =>
    if v.len = 0 then encLoopI L f (k + 1) c out off rem vs
    else match v with
      | .null _ => .ok (out, .error .invalidArgument)
      | .buf d =>
        if rem < d.length then .ok (out, .error .invalidArgument)
        else match toInt d.length with                                         -- 215
          | none => .error .intRange
          | some n =>
            if f.update k then .ok (out, .error .internal)
            else do
              let (o, c') := c.encUpdate L (d.take n)
              let out' ← writeAt out off o
              let rem' ← subSize rem o.length
              encLoopI L f (k + 1) c' out' (off + o.length) rem' vs

/-- `AesGcmS2AAeadCrypter::Encrypt` (src/crypto/aes_gcm_crypter.cc:168-270) and
`ChachaPolyS2AAeadCrypterOpenSSL::Encrypt`
(src/crypto/chacha_poly_crypter_openssl.cc:178-276). -/
def evpEncryptI (o : ByteOrder) (L : Lib) (f : EvpFault) (alg : Alg) (key nonce : Bytes)
    (aad plaintext : List Iovec) (out : Iovec) : Exec Result :=
  match out with
  | .null _ => .error .assertFail                                          -- line 173
  | .buf ob =>
    if nonce.length ≠ kNonceSize then .ok ⟨.invalidArgument, 0, out⟩       -- lines 42-45
    else if f.init then .ok ⟨.internal, 0, out⟩                            -- lines 46-50
    else do
      match ← setAadI o f 0 ⟨alg, key, nonce, [], []⟩ aad with
      | .error e => return ⟨e, 0, out⟩                                     -- lines 182-185
      | .ok c =>
        match ← encLoopI L f 0 c ob 0 ob.length plaintext with
        | (ob', .error e) => return ⟨e, 0, .buf ob'⟩
        | (ob', .ok (c', off, rem)) =>
          if f.final then return ⟨.internal, 0, .buf ob'⟩                  -- lines 236-242
          else if rem < kTagSize then return ⟨.invalidArgument, 0, .buf ob'⟩ -- 252-257
          else if f.tag then return ⟨.internal, 0, .buf ob'⟩               -- lines 258-264
          else
            let ob'' ← writeAt ob' off (c'.tag L)
            let rem' ← subSize rem kTagSize                                -- lines 265-266
            let w ← subSize ob.length rem'                                 -- lines 268-269
            return ⟨.ok, w, .buf ob''⟩

/-- The decryption loop (src/crypto/aes_gcm_crypter.cc:313-365,
src/crypto/chacha_poly_crypter_openssl.cc:319-371).  Here `bytes_written` is a `size_t` of which
the library writes the first four bytes. -/
def decLoopI (o : ByteOrder) (L : Lib) (f : EvpFault) :
    Nat → Ctx → (out : Bytes) → (off rem total : Nat) →
    (cur : Bytes) → List Iovec → Exec (Bytes × Except StatusCode DecState)
  | _, c, out, _, rem, total, cur, [] => .ok (out, .ok ⟨c, cur, total, rem, []⟩)
  | k, c, out, off, rem, total, cur, v :: vs =>
    if total ≤ kTagSize then .ok (out, .ok ⟨c, cur, total, rem, v :: vs⟩)     -- 314-316
    else if v.len = 0 then decLoopI o L f (k + 1) c out off rem total [] vs     -- 318-322
    else match v with
      | .null _ => .ok (zeros out.length, .error .invalidArgument)             -- 323-329
      | .buf d =>
        -- lines 331-336
        let btw := if d.length > total - kTagSize then total - kTagSize else d.length
        if rem < btw then .ok (out, .error .invalidArgument)                    -- 337-343
        else match toInt btw with                                               -- 346
          | none => .error .intRange
          | some n =>
            if f.update k then .ok (zeros out.length, .error .internal)         -- 344-352
            else do
              let (p, c') := c.decUpdate L (d.take n)
              let out' ← writeAt out off p
              let w := throughInt o n
              if w > d.length then return (zeros out'.length, .error .internal) -- 353-359
              else do
                let rem' ← subSize rem w                                        -- 360-364
                let total' ← subSize total w
                decLoopI o L f (k + 1) c' out' (off + w) rem' total' (d.drop w) vs

/-- `AesGcmS2AAeadCrypter::Decrypt` (src/crypto/aes_gcm_crypter.cc:272-398) and
`ChachaPolyS2AAeadCrypterOpenSSL::Decrypt`
(src/crypto/chacha_poly_crypter_openssl.cc:278-404). -/
def evpDecryptI (o : ByteOrder) (L : Lib) (f : EvpFault) (alg : Alg) (key nonce : Bytes)
    (aad ciphertextAndTag : List Iovec) (out : Iovec) : Exec Result :=
  if ¬ out.WF then .error .assertFail                                         -- 277-279
  else
    let ob := out.bytes
    let total := totalLen ciphertextAndTag                                     -- 283-286
    if total < kTagSize then .ok ⟨.invalidArgument, 0, out⟩                    -- 287-292
    else if nonce.length ≠ kNonceSize then .ok ⟨.invalidArgument, 0, out⟩
    else if f.init then .ok ⟨.internal, 0, out⟩
    else do
      match ← setAadI o f 0 ⟨alg, key, nonce, [], []⟩ aad with
      | .error e => return ⟨e, 0, out⟩                                         -- 301-304
      | .ok c =>
        match ← decLoopI o L f 0 c ob 0 ob.length total [] ciphertextAndTag with
        | (ob', .error e) => return ⟨e, 0, out.setBytes ob'⟩
        | (ob', .ok s) =>
          if s.total > kTagSize then                                           -- 367-374
            return ⟨.internal, 0, out.setBytes (zeros ob'.length)⟩
          else
            let tag ← tagAppend [] s.cur                                       -- 377-383
            let tag ← gatherTag tag s.rest                                     -- 384-390
            if tag.length ≠ kTagSize then .error .uninitialized
            else if f.tag then
              return ⟨.internal, 0, out.setBytes (zeros ob'.length)⟩           -- 78-83
            else if f.final || decide (s.ctx.tag L ≠ tag) then
              return ⟨.internal, 0, out.setBytes (zeros ob'.length)⟩           -- 85-89
            else
              let w ← subSize ob.length s.rem                                  -- 396-397
              return ⟨.ok, w, out.setBytes ob'⟩

/-- Virtual call `S2AAeadCrypter::Encrypt`. [src/crypto/s2a_aead_crypter.h:82]  With BoringSSL
ChaCha20-Poly1305 uses another interface, which takes every length as a `size_t`. -/
def Crypter.encryptI (o : ByteOrder) (L : Lib) (f : EvpFault) (c : Crypter) (nonce : Bytes)
    (aad plaintext : List Iovec) (out : Iovec) : Exec Result :=
  if L.boring && decide (c.alg = .chachaPoly) then
    boringEncrypt L f c.alg c.key nonce aad plaintext out
  else evpEncryptI o L f c.alg c.key nonce aad plaintext out

/-- Virtual call `S2AAeadCrypter::Decrypt`. [src/crypto/s2a_aead_crypter.h:101] -/
def Crypter.decryptI (o : ByteOrder) (L : Lib) (f : EvpFault) (c : Crypter) (nonce : Bytes)
    (aad ciphertextAndTag : List Iovec) (out : Iovec) : Exec Result :=
  if L.boring && decide (c.alg = .chachaPoly) then
    boringDecrypt L f c.alg c.key nonce aad ciphertextAndTag out
  else evpDecryptI o L f c.alg c.key nonce aad ciphertextAndTag out

end Aead

namespace HalfConn

/-- `S2AHalfConnection::Encrypt` (s2a_half_connection.cc:171-184). -/
def encryptI (o : ByteOrder) (L : Lib) (f : EvpFault) (hc : HalfConn) (aad plaintext : List Iovec)
    (out : Iovec) : Exec (HalfConn × Option AeadCall × Aead.Result) :=
  if hc.alwaysFail || hc.overflowed then .ok (hc, none, ⟨.internal, 0, out⟩)
  else do
    let (n, hc') ← hc.nonceMask
    let call : AeadCall := ⟨hc.aead.key, n, flat aad, flat plaintext⟩
    let r ← hc.aead.encryptI o L f call.nonce aad plaintext out
    return (hc', some call, r)

/-- `S2AHalfConnection::Decrypt` (s2a_half_connection.cc:186-199). -/
def decryptI (o : ByteOrder) (L : Lib) (f : EvpFault) (hc : HalfConn) (aad ciphertextAndTag : List Iovec)
    (out : Iovec) : Exec (HalfConn × Option AeadCall × Aead.Result) :=
  if hc.alwaysFail || hc.overflowed then .ok (hc, none, ⟨.internal, 0, out⟩)
  else do
    let (n, hc') ← hc.nonceMask
    let call : AeadCall := ⟨hc.aead.key, n, flat aad, flat ciphertextAndTag⟩
    let r ← hc.aead.decryptI o L f call.nonce aad ciphertextAndTag out
    return (hc', some call, r)

end HalfConn

namespace Record

/-- `S2ACrypter::Protect` (s2a_crypter.cc:258-331). -/
def protectI (o : ByteOrder) (L : Lib) (f : EvpFault) (c : Conn) (rt : RecordType) (plaintext : List Iovec)
    (record : Iovec) : Exec (Conn × Result) :=
  let n := totalLen plaintext
  if n > kMaxPlaintext then .ok (c, ⟨.failedPrecondition, 0, record, none, none, none⟩)        -- 263-271
  else if record.len < n + c.recordOverhead then
    .ok (c, ⟨.failedPrecondition, 0, record, none, none, none⟩)                                -- 274-281
  else
    let payloadSize := n + 1 + c.outC.tagLength                                    -- 284-285
    match record with
    | .null _ => .error .assertFail                                                -- 287
    | .buf rb => do
      let hdr := headerBytes payloadSize
      let rb ← writeAt rb 0 hdr                                                    -- 288-289
      match convertRecordType rt with
      | .error e => return (c, ⟨convertStatus e, 0, .buf rb, none, none, none⟩)                -- 297-305
      | .ok t =>
        let payload := plaintext ++ [.buf [t]]                                     -- 306-312
        let rest ← (Iovec.buf rb).slice kHeaderLength (rb.length - kHeaderLength)
        let (outC, call, r) ← c.outC.encryptI o L f [.buf hdr] payload rest           -- 317-320
        let c := { c with outC := outC }
        if r.status ≠ .ok then
          return (c, ⟨convertStatus r.status, 0, .buf (zeros rb.length), call, none, none⟩)    -- 321-328
        else
          return (c, ⟨.ok, r.written + kHeaderLength,
            .buf (rb.take kHeaderLength ++ r.out.bytes), call, none, none⟩)

/-- `S2ACrypter::Unprotect` (s2a_crypter.cc:333-477). -/
def unprotectI (o : ByteOrder) (L : Lib) (f : Fault) (c : Conn) (header : Iovec) (payload : List Iovec)
    (plaintext : Iovec) : Exec (Conn × Result) :=
  if c.closeNotify then .ok (c, ⟨.alertCloseNotify, 0, plaintext, none, none, none⟩)            -- 336-342
  else
    let recordLength := header.len + totalLen payload
    if recordLength < c.recordOverhead then
      .ok (c, ⟨.failedPrecondition, 0, plaintext, none, none, none⟩)                            -- 346-351
    else if recordLength > c.recordOverhead + kMaxPlaintext then
      .ok (c, ⟨.alertRecordOverflow, 0, plaintext, none, none, none⟩)                           -- 356-361
    else if !validateHeader header recordLength then
      .ok (c, ⟨.failedPrecondition, 0, plaintext, none, none, none⟩)                            -- 364-369
    else do
      let (inC, call, r) ← c.inC.decryptI o L f.evp [header] payload plaintext         -- 371-372
      let c := { c with inC := inC }
      if r.status ≠ .ok then
        let z ← zeroOut r.out
        return (c, ⟨.internalError, 0, z, call, none, none⟩)                                    -- 373-379
      else match r.out with
        | .null _ => .error .assertFail                                             -- 382
        | .buf pt => dispatch L f.key c call pt r.written

end Record

namespace Frame
open Record (Conn RecordType Code)

/-- A call of `crypter_->Protect`. [src/frame_protector/s2a_frame_protector.cc:292] -/
def State.crypterProtectI (o : ByteOrder) (L : Lib) (f : EvpFault) (s : State) (pt : List Iovec) (record : Iovec) :
    Exec (State × Record.Result) := do
  let (c, r) ← Record.protectI o L f s.conn .applicationData pt record
  return ({ s with conn := c, evs := s.evs ++ [.sealed r] }, r)

/-- A call of `crypter_->Unprotect`. [src/frame_protector/s2a_frame_protector.cc:365, 450] -/
def State.crypterUnprotectI (o : ByteOrder) (L : Lib) (f : Record.Fault) (s : State) (header : Bytes)
    (payload : List Iovec) (out : Iovec) : Exec (State × Record.Result) := do
  let (c, r) ← Record.unprotectI o L f s.conn (.buf header) payload out
  return ({ s with conn := c, evs := s.evs ++ [.opened r] }, r)

/-- The loop of `Protect` (s2a_frame_protector.cc:256-315), as `protectLoop`. -/
def protectLoopI (o : ByteOrder) (L : Lib) (f : Nat → EvpFault) (id : BufId) :
    (fuel i : Nat) → State → (vs : List Iovec) → (on : Nat) → (first : Bool) → (rem idx : Nat) →
    (out : Iovec) → Exec (State × StatusCode × Iovec)
  | 0, _, _, _, _, _, _, _, _ => .error .diverges
  | fuel + 1, i, s, vs, on, first, rem, idx, out =>
    if first || decide (rem > 0) then do
      let n := if rem < kMaxPlaintext then rem else kMaxPlaintext               -- 260-263
      let (pieces, vs, on) ← collect vs on n                                    -- 267-285
      let room ← subSize out.len idx
      let slot ← out.slice idx room                                             -- 293-295
      let (s, r) ← s.crypterProtectI o L (f i) pieces slot
      let out := out.setBytes (out.bytes.take idx ++ r.out.bytes)
      if r.code ≠ .ok then                                                      -- 296-303
        return (s.destroy id out.len, convertCode r.code, out)
      else if r.written ≠ n + s.conn.recordOverhead then                        -- 304-310
        return (s.destroy id out.len, .internal, out)
      else protectLoopI o L f id fuel (i + 1) s vs on false (rem - n) (idx + r.written) out
    else return (s, .ok, out)

/-- The non-allocating `Protect` (s2a_frame_protector.cc:243-317). -/
def protectIntoI (o : ByteOrder) (L : Lib) (f : Nat → EvpFault) (s : State) (id : BufId) (vs : List Iovec)
    (out : Iovec) : Exec (State × StatusCode × Iovec) :=
  let n := totalLen vs
  protectLoopI o L f id (n + 2) 0 s vs 0 (decide (n = 0)) n 0 out

/-- The allocating `Protect` (s2a_frame_protector.cc:233-241). -/
def protectI (o : ByteOrder) (L : Lib) (A : Allocator) (f : Nat → EvpFault) (s : State) (vs : List Iovec) :
    Exec (State × Result) := do
  let (s, id, buf) := s.alloc A (numberBytesToProtect s (totalLen vs))
  let (s, st, out) ← protectIntoI o L f s id vs buf
  if st ≠ .ok then return (s.destroy id out.len, ⟨st, []⟩)                      -- 236-239
  else return (s, ⟨.ok, [(id, out.bytes)]⟩)

/-- The non-allocating `Unprotect` (s2a_frame_protector.cc:319-377). -/
def unprotectIntoI (o : ByteOrder) (L : Lib) (f : Record.Fault) (s : State) (vs : List Iovec) (out : Iovec) :
    Exec (State × StatusCode × Nat × Iovec) :=
  if numberBytesToUnprotect s (totalLen vs) = 0 then
    .ok (s, .failedPrecondition, out.len, out)                                  -- 322-325
  else do
    match ← readHeader kHeaderLength 0 vs 0 with
    | .error e => return (s, e, 0, out)                                         -- 334-338
    | .ok (header, vs, on) =>
      match ← isolate vs on (payloadSize header) with
      | .error e => return (s, e, 0, out)                                       -- 354-358
      | .ok (payload, _, _) =>
        let (s, r) ← s.crypterUnprotectI o L f header payload out
        if r.code ≠ .ok then return (s, convertCode r.code, 0, r.out)           -- 368-374
        else return (s, .ok, r.written, r.out)

/-- The loop of the allocating `Unprotect` (s2a_frame_protector.cc:394-465), as `unprotectLoop`. -/
def unprotectLoopI (o : ByteOrder) (L : Lib) (A : Allocator) (f : Nat → Record.Fault) :
    (fuel i : Nat) → State → (vs : List Iovec) → (on rem : Nat) → (done : List (BufId × Bytes)) →
    Exec (State × Result)
  | 0, _, _, _, _, _, _ => .error .diverges
  | fuel + 1, i, s, vs, on, rem, done =>
    if rem ≥ s.conn.recordOverhead then do
      match ← readHeader kHeaderLength 0 vs on with
      | .error e => return (s, ⟨e, []⟩)                                         -- 407-410
      | .ok (header, vs, on) =>
        let size := payloadSize header
        match ← isolate vs on size with
        | .error e => return (s, ⟨e, []⟩)                                       -- 431-434
        | .ok (payload, vs, on) =>
          let (s, id, buf) := s.alloc A size                                    -- 448
          let (s, r) ← s.crypterUnprotectI o L (f i) header payload buf
          if r.code ≠ .ok then                                                  -- 452-461
            return ((s.destroy id buf.len).destroyAll done, ⟨convertCode r.code, []⟩)
          else do
            let rem ← subSize rem (kHeaderLength + size)
            unprotectLoopI o L A f fuel (i + 1) s vs on rem
              (done ++ [(id, r.out.bytes.take r.written)])
    else return (s, ⟨.ok, done⟩)

/-- The allocating `Unprotect` (s2a_frame_protector.cc:379-467). -/
def unprotectI (o : ByteOrder) (L : Lib) (A : Allocator) (f : Nat → Record.Fault) (s : State) (vs : List Iovec) :
    Exec (State × Result) :=
  let n := totalLen vs
  if n < s.conn.recordOverhead then .ok (s, ⟨.failedPrecondition, []⟩)          -- 381-385
  else unprotectLoopI o L A f (n + 1) 0 s vs 0 n []

/-- One call (include/s2a_frame_protector.h:63-140). -/
def stepI (o : ByteOrder) (L : Lib) (A : Allocator) (s : State) : Op → Exec (State × Event)
  | .protect f vs => do
    let (s, r) ← protectI o L A f s vs
    return (s, .result r)
  | .protectInto f vs out => do
    let (s, st, out) ← protectIntoI o L f s .caller vs out
    return (s, .status st out.len out)
  | .unprotect f vs => do
    let (s, r) ← unprotectI o L A f s vs
    return (s, .result r)
  | .unprotectInto f vs out => do
    let (s, st, len, out) ← unprotectIntoI o L f s vs out
    return (s, .status st len out)

/-- A history of calls (the user of include/s2a_frame_protector.h). -/
def runI (o : ByteOrder) (L : Lib) (A : Allocator) : State → List Op → Exec (State × List Event)
  | s, [] => .ok (s, [])
  | s, op :: ops => do
    let (s, e) ← stepI o L A s op
    let (s, es) ← runI o L A s ops
    return (s, e :: es)

end Frame
end S2A
