import Verif.Model.Frame
/-
Buffers that share memory.  Elsewhere in the model a buffer is the bytes in it, so that the output
of a call never overlaps its input.  Here there is one memory, buffers are places in it, and the
functions that write to an output buffer while they still read their input are modelled again:
the AEAD crypters, `S2ACrypter::Protect` and `Unprotect`, and the `Protect` and `Unprotect` of the
frame protector that write to a buffer of the caller.  Each follows its counterpart in
Model/Aead.lean, Model/Record.lean and Model/Frame.lean line by line.

Simplified: the output buffer is not null.
-/
namespace S2A.InPlace
open Aead (Ctx kTagSize kNonceSize intBound)

/-- An `aead_crypter::Iovec` (src/crypto/s2a_aead_constants.h:29-32): a null pointer, `len` bytes
from address `off` of the memory, or bytes on the stack, which are apart from all buffers of the
caller. -/
inductive Ptr
  | null (len : Nat)
  | mem (off len : Nat)
  | stack (data : Bytes)
  deriving DecidableEq, Repr

namespace Ptr

/-- `iov_len`. [src/crypto/s2a_aead_constants.h:31] -/
def len : Ptr → Nat
  | null n => n
  | mem _ n => n
  | stack d => d.length

/-- What is in the buffer now. [src/crypto/s2a_aead_constants.h:30] -/
def view (m : Bytes) : Ptr → Iovec
  | null n => .null n
  | mem off n => .buf ((m.drop off).take n)
  | stack d => .buf d

/-- The sub-buffer `{iov_base + a, n}`. [e.g. src/frame_protector/s2a_frame_protector.cc:164-186] -/
def slice : Ptr → (a n : Nat) → Exec Ptr
  | null m, a, n => if a + n ≤ m then .ok (null n) else .error .outOfBounds
  | mem off len, a, n => if a + n ≤ len then .ok (mem (off + a) n) else .error .outOfBounds
  | stack d, a, n =>
    if a + n ≤ d.length then .ok (stack ((d.drop a).take n)) else .error .outOfBounds

/-- The first `n` bytes of a buffer overlap, but do not coincide with, `n` bytes at address `cp`.
OpenSSL refuses to read the ones and write the others, in BoringSSL the result is not defined.
[contract of `EVP_EncryptUpdate` and `EVP_DecryptUpdate`, src/crypto/aes_gcm_crypter.cc:213, 344] -/
def clashes (p : Ptr) (n cp : Nat) : Bool :=
  match p with
  | mem off _ => decide (off ≠ cp) && decide (off < cp + n) && decide (cp < off + n)
  | _ => false

end Ptr

/-- `len` bytes from address `off`. [no counterpart in the code] -/
def get (m : Bytes) (off n : Nat) : Bytes := (m.drop off).take n

/-! ### The AEAD crypters -/

/-- `Aead.encLoop`; `cp` is `ciphertext_ptr`. [src/crypto/aes_gcm_crypter.cc:192-231,
src/crypto/chacha_poly_crypter_openssl.cc:202-237] -/
def encLoop (L : Lib) (f : EvpFault) : Nat → Ctx → (m : Bytes) → (cp rem : Nat) →
    List Ptr → Exec (Bytes × Except StatusCode (Ctx × Nat × Nat))
  | _, c, m, cp, rem, [] => .ok (m, .ok (c, cp, rem))
  | k, c, m, cp, rem, v :: vs =>
    if v.len = 0 then encLoop L f (k + 1) c m cp rem vs
    else match v.view m with
      | .null _ => .ok (m, .error .invalidArgument)
      | .buf d =>
        if rem < d.length then .ok (m, .error .invalidArgument)
        else if intBound ≤ d.length then .error .intRange
        else if f.update k then .ok (m, .error .internal)
        else if v.clashes d.length cp then .error .overlap
        else do
          let (o, c') := c.encUpdate L d
          let m' ← writeAt m cp o
          let rem' ← subSize rem o.length
          encLoop L f (k + 1) c' m' (cp + o.length) rem' vs

/-- `Aead.evpEncrypt` with the output `{oo, on}`: the memory, the status and the number of bytes
written.  The associated data is read before anything is written.
[src/crypto/aes_gcm_crypter.cc:168-270, src/crypto/chacha_poly_crypter_openssl.cc:178-276] -/
def evpEncrypt (L : Lib) (f : EvpFault) (alg : Alg) (key nonce : Bytes) (m : Bytes)
    (aad plaintext : List Ptr) (oo on : Nat) : Exec (Bytes × StatusCode × Nat) :=
  if nonce.length ≠ kNonceSize then .ok (m, .invalidArgument, 0)
  else if f.init then .ok (m, .internal, 0)
  else do
    match ← Aead.setAad f 0 ⟨alg, key, nonce, [], []⟩ (aad.map (·.view m)) with
    | .error e => return (m, e, 0)
    | .ok c =>
      match ← encLoop L f 0 c m oo on plaintext with
      | (m', .error e) => return (m', e, 0)
      | (m', .ok (c', cp, rem)) =>
        if f.final then return (m', .internal, 0)
        else if rem < kTagSize then return (m', .invalidArgument, 0)
        else if f.tag then return (m', .internal, 0)
        else
          let m'' ← writeAt m' cp (c'.tag L)
          let rem' ← subSize rem kTagSize
          let w ← subSize on rem'
          return (m'', .ok, w)

/-- `Aead.DecState`; `cur` is where `ciphertext_ptr` points. [src/crypto/aes_gcm_crypter.cc:313-365]
-/
structure DecState where
  ctx : Ctx
  cur : Ptr
  total : Nat
  rem : Nat
  rest : List Ptr

/-- `memset(plaintext.iov_base, 0, plaintext.iov_len)`. [src/crypto/aes_gcm_crypter.cc:80, 323-352]
-/
def clear (m : Bytes) (oo on : Nat) : Exec Bytes := writeAt m oo (zeros on)

/-- `Aead.decLoop`; `pp` is `plaintext_ptr`, and `{oo, on}` the output.
[src/crypto/aes_gcm_crypter.cc:313-365, src/crypto/chacha_poly_crypter_openssl.cc:319-371] -/
def decLoop (L : Lib) (f : EvpFault) (oo on : Nat) : Nat → Ctx → (m : Bytes) →
    (pp rem total : Nat) → (cur : Ptr) → List Ptr → Exec (Bytes × Except StatusCode DecState)
  | _, c, m, _, rem, total, cur, [] => .ok (m, .ok ⟨c, cur, total, rem, []⟩)
  | k, c, m, pp, rem, total, cur, v :: vs =>
    if total ≤ kTagSize then .ok (m, .ok ⟨c, cur, total, rem, v :: vs⟩)
    else if v.len = 0 then decLoop L f oo on (k + 1) c m pp rem total (.stack []) vs
    else match v.view m with
      | .null _ => do return (← clear m oo on, .error .invalidArgument)
      | .buf d =>
        let btw := if d.length > total - kTagSize then total - kTagSize else d.length
        if rem < btw then .ok (m, .error .invalidArgument)
        else if intBound ≤ btw then .error .intRange
        else if f.update k then do return (← clear m oo on, .error .internal)
        else if v.clashes btw pp then .error .overlap
        else do
          let (o, c') := c.decUpdate L (d.take btw)
          let m' ← writeAt m pp o
          let rem' ← subSize rem o.length
          let total' ← subSize total o.length
          let cur ← v.slice btw (v.len - btw)
          decLoop L f oo on (k + 1) c' m' (pp + o.length) rem' total' cur vs

/-- `Aead.evpDecrypt` with the output `{oo, on}`.  The tag is read after the plaintext was written.
[src/crypto/aes_gcm_crypter.cc:272-398, src/crypto/chacha_poly_crypter_openssl.cc:278-404] -/
def evpDecrypt (L : Lib) (f : EvpFault) (alg : Alg) (key nonce : Bytes) (m : Bytes)
    (aad ciphertextAndTag : List Ptr) (oo on : Nat) : Exec (Bytes × StatusCode × Nat) :=
  let total := (ciphertextAndTag.map Ptr.len).sum
  if total < kTagSize then .ok (m, .invalidArgument, 0)
  else if nonce.length ≠ kNonceSize then .ok (m, .invalidArgument, 0)
  else if f.init then .ok (m, .internal, 0)
  else do
    match ← Aead.setAad f 0 ⟨alg, key, nonce, [], []⟩ (aad.map (·.view m)) with
    | .error e => return (m, e, 0)
    | .ok c =>
      match ← decLoop L f oo on 0 c m oo on total (.stack []) ciphertextAndTag with
      | (m', .error e) => return (m', e, 0)
      | (m', .ok s) =>
        if s.total > kTagSize then return (← clear m' oo on, .internal, 0)
        else
          let tag ← Aead.tagAppend [] (s.cur.view m').bytes
          let tag ← Aead.gatherTag tag (s.rest.map (·.view m'))
          if tag.length ≠ kTagSize then .error .uninitialized
          else if f.tag then return (← clear m' oo on, .internal, 0)
          else if f.final || decide (s.ctx.tag L ≠ tag) then
            return (← clear m' oo on, .internal, 0)
          else
            let w ← subSize on s.rem
            return (m', .ok, w)

/-- `Aead.boringEncrypt`: all input is copied before anything is written.
[src/crypto/chacha_poly_crypter_boringssl.cc:52-137] -/
def boringEncrypt (L : Lib) (f : EvpFault) (alg : Alg) (key nonce : Bytes) (m : Bytes)
    (aad plaintext : List Ptr) (oo on : Nat) : Exec (Bytes × StatusCode × Nat) := do
  let r ← Aead.boringEncrypt L f alg key nonce (aad.map (·.view m)) (plaintext.map (·.view m))
    (.buf (get m oo on))
  return (← writeAt m oo r.out.bytes, r.status, r.written)

/-- `Aead.boringDecrypt`: all input is copied before anything is written.
[src/crypto/chacha_poly_crypter_boringssl.cc:139-234] -/
def boringDecrypt (L : Lib) (f : EvpFault) (alg : Alg) (key nonce : Bytes) (m : Bytes)
    (aad ciphertextAndTag : List Ptr) (oo on : Nat) : Exec (Bytes × StatusCode × Nat) := do
  let r ← Aead.boringDecrypt L f alg key nonce (aad.map (·.view m))
    (ciphertextAndTag.map (·.view m)) (.buf (get m oo on))
  return (← writeAt m oo r.out.bytes, r.status, r.written)

/-- Virtual call `S2AAeadCrypter::Encrypt`. [src/crypto/s2a_aead_crypter.h:82] -/
def crypterEncrypt (L : Lib) (f : EvpFault) (c : Aead.Crypter) (nonce : Bytes) (m : Bytes)
    (aad plaintext : List Ptr) (oo on : Nat) : Exec (Bytes × StatusCode × Nat) :=
  if L.boring && decide (c.alg = .chachaPoly) then
    boringEncrypt L f c.alg c.key nonce m aad plaintext oo on
  else evpEncrypt L f c.alg c.key nonce m aad plaintext oo on

/-- Virtual call `S2AAeadCrypter::Decrypt`. [src/crypto/s2a_aead_crypter.h:101] -/
def crypterDecrypt (L : Lib) (f : EvpFault) (c : Aead.Crypter) (nonce : Bytes) (m : Bytes)
    (aad ciphertextAndTag : List Ptr) (oo on : Nat) : Exec (Bytes × StatusCode × Nat) :=
  if L.boring && decide (c.alg = .chachaPoly) then
    boringDecrypt L f c.alg c.key nonce m aad ciphertextAndTag oo on
  else evpDecrypt L f c.alg c.key nonce m aad ciphertextAndTag oo on

/-! ### The record layer -/

/-- `HalfConn.encrypt`.  The call that is reported has the input as it was before the call.
[src/record_protocol/s2a_half_connection.cc:171-184] -/
def halfEncrypt (L : Lib) (f : EvpFault) (hc : HalfConn) (m : Bytes) (aad plaintext : List Ptr)
    (oo on : Nat) : Exec (HalfConn × Option HalfConn.AeadCall × Bytes × StatusCode × Nat) :=
  if hc.alwaysFail || hc.overflowed then .ok (hc, none, m, .internal, 0)
  else do
    let (n, hc') ← hc.nonceMask
    let call : HalfConn.AeadCall :=
      ⟨hc.aead.key, n, flat (aad.map (·.view m)), flat (plaintext.map (·.view m))⟩
    let r ← crypterEncrypt L f hc.aead n m aad plaintext oo on
    return (hc', some call, r)

/-- `HalfConn.decrypt`. [src/record_protocol/s2a_half_connection.cc:186-199] -/
def halfDecrypt (L : Lib) (f : EvpFault) (hc : HalfConn) (m : Bytes)
    (aad ciphertextAndTag : List Ptr) (oo on : Nat) :
    Exec (HalfConn × Option HalfConn.AeadCall × Bytes × StatusCode × Nat) :=
  if hc.alwaysFail || hc.overflowed then .ok (hc, none, m, .internal, 0)
  else do
    let (n, hc') ← hc.nonceMask
    let call : HalfConn.AeadCall :=
      ⟨hc.aead.key, n, flat (aad.map (·.view m)), flat (ciphertextAndTag.map (·.view m))⟩
    let r ← crypterDecrypt L f hc.aead n m aad ciphertextAndTag oo on
    return (hc', some call, r)

/-- `Record.protect` with the output `{ro, rn}`: the header is written before the plaintext is
read. [src/record_protocol/s2a_crypter.cc:258-331] -/
def recordProtect (L : Lib) (f : EvpFault) (c : Record.Conn) (rt : Record.RecordType) (m : Bytes)
    (plaintext : List Ptr) (ro rn : Nat) : Exec (Bytes × Record.Conn × Record.Result) :=
  let n := (plaintext.map Ptr.len).sum
  if n > Record.kMaxPlaintext then
    .ok (m, c, ⟨.failedPrecondition, 0, .buf (get m ro rn), none, none, none⟩)
  else if rn < n + c.recordOverhead then
    .ok (m, c, ⟨.failedPrecondition, 0, .buf (get m ro rn), none, none, none⟩)
  else do
    let payloadSize := n + 1 + c.outC.tagLength
    let m ← writeAt m ro (Record.headerBytes payloadSize)
    match Record.convertRecordType rt with
    | .error e =>
      return (m, c, ⟨Record.convertStatus e, 0, .buf (get m ro rn), none, none, none⟩)
    | .ok t =>
      let payload := plaintext ++ [.stack [t]]
      let (outC, call, m, st, w) ← halfEncrypt L f c.outC m [.mem ro Record.kHeaderLength] payload
        (ro + Record.kHeaderLength) (rn - Record.kHeaderLength)
      let c := { c with outC := outC }
      if st ≠ .ok then
        let m ← clear m ro rn
        return (m, c, ⟨Record.convertStatus st, 0, .buf (get m ro rn), call, none, none⟩)
      else
        return (m, c, ⟨.ok, w + Record.kHeaderLength, .buf (get m ro rn), call, none, none⟩)

/-- `Record.unprotect` with the output `{oo, on}`.  After the decryption only the output buffer is
used (`Record.dispatch`). [src/record_protocol/s2a_crypter.cc:333-477] -/
def recordUnprotect (L : Lib) (f : Record.Fault) (c : Record.Conn) (header : Bytes) (m : Bytes)
    (payload : List Ptr) (oo on : Nat) : Exec (Bytes × Record.Conn × Record.Result) :=
  let out : Iovec := .buf (get m oo on)
  if c.closeNotify then .ok (m, c, ⟨.alertCloseNotify, 0, out, none, none, none⟩)
  else
    let recordLength := header.length + (payload.map Ptr.len).sum
    if recordLength < c.recordOverhead then
      .ok (m, c, ⟨.failedPrecondition, 0, out, none, none, none⟩)
    else if recordLength > c.recordOverhead + Record.kMaxPlaintext then
      .ok (m, c, ⟨.alertRecordOverflow, 0, out, none, none, none⟩)
    else if !Record.validateHeader (.buf header) recordLength then
      .ok (m, c, ⟨.failedPrecondition, 0, out, none, none, none⟩)
    else do
      let (inC, call, m, st, w) ← halfDecrypt L f.evp c.inC m [.stack header] payload oo on
      let c := { c with inC := inC }
      if st ≠ .ok then
        let m ← clear m oo on
        return (m, c, ⟨.internalError, 0, .buf (get m oo on), call, none, none⟩)
      else do
        let (c, r) ← Record.dispatch L f.key c call (get m oo on) w
        return (← writeAt m oo r.out.bytes, c, r)

/-! ### The frame protector -/

/-- `Frame.advance`. [src/frame_protector/s2a_frame_protector.cc:134-138, 175-185, 279-283] -/
def advance (v : Ptr) (vs : List Ptr) (on : Nat) : List Ptr × Nat :=
  if on ≥ v.len then (vs, 0) else (v :: vs, on)

/-- `Frame.readHeader`. [src/frame_protector/s2a_frame_protector.cc:99-139] -/
def readHeader (m : Bytes) : (k i : Nat) → (vs : List Ptr) → (on : Nat) →
    Exec (Except StatusCode (Bytes × List Ptr × Nat))
  | 0, _, vs, on => .ok (.ok ([], vs, on))
  | _ + 1, _, [], _ => .ok (.error .failedPrecondition)
  | k + 1, i, v :: vs, on =>
    match v.view m with
    | .null _ => .error .assertFail
    | .buf d => do
      let b ← (Iovec.buf d).byteAt on
      if !Frame.headerByteOk i b then return .error .failedPrecondition
      else
        let (vs, on) := advance v vs (on + 1)
        match ← readHeader m k (i + 1) vs on with
        | .error e => return .error e
        | .ok (h, vs, on) => return .ok (b :: h, vs, on)

/-- `Frame.isolate`. [src/frame_protector/s2a_frame_protector.cc:164-186] -/
def isolate : (vs : List Ptr) → (on rem : Nat) →
    Exec (Except StatusCode (List Ptr × List Ptr × Nat))
  | vs, on, 0 => .ok (.ok ([], vs, on))
  | [], _, _ + 1 => .ok (.error .failedPrecondition)
  | .null _ :: _, _, _ + 1 => .error .assertFail
  | v :: vs, on, rem + 1 => do
      let left ← subSize v.len on
      let n := min left (rem + 1)
      let piece ← v.slice on n
      if n + on = v.len then do
        match ← isolate vs 0 (rem + 1 - n) with
        | .error e => return .error e
        | .ok (ps, vs, on) => return .ok (piece :: ps, vs, on)
      else return .ok ([piece], v :: vs, on + n)

/-- `Frame.collect`. [src/frame_protector/s2a_frame_protector.cc:267-285] -/
def collect : (vs : List Ptr) → (on need : Nat) → Exec (List Ptr × List Ptr × Nat)
  | vs, on, 0 => .ok ([], vs, on)
  | [], _, _ + 1 => .error .assertFail
  | v :: vs, on, need + 1 => do
    let left ← subSize v.len on
    let n := min left (need + 1)
    let piece ← v.slice on n
    if on + n ≥ v.len then do
      let (ps, vs, on) ← collect vs 0 (need + 1 - n)
      return (piece :: ps, vs, on)
    else return ([piece], v :: vs, on + n)

/-- `Frame.protectLoop` with the output `{oo, on}`. [src/frame_protector/s2a_frame_protector.cc:256-315]
-/
def protectLoop (L : Lib) (f : Nat → EvpFault) (oo on : Nat) :
    (fuel i : Nat) → Frame.State → (m : Bytes) → (vs : List Ptr) → (at' : Nat) → (first : Bool) →
    (rem idx : Nat) → Exec (Bytes × Frame.State × StatusCode)
  | 0, _, _, _, _, _, _, _, _ => .error .diverges
  | fuel + 1, i, s, m, vs, at', first, rem, idx =>
    if first || decide (rem > 0) then do
      let n := if rem < Frame.kMaxPlaintext then rem else Frame.kMaxPlaintext
      let (pieces, vs, at') ← collect vs at' n
      let room ← subSize on idx
      let (m, c, r) ← recordProtect L (f i) s.conn .applicationData m pieces (oo + idx) room
      let s := { s with conn := c, evs := s.evs ++ [.sealed r] }
      if r.code ≠ .ok then return (m, s.destroy .caller on, Frame.convertCode r.code)
      else if r.written ≠ n + s.conn.recordOverhead then
        return (m, s.destroy .caller on, .internal)
      else protectLoop L f oo on fuel (i + 1) s m vs at' false (rem - n) (idx + r.written)
    else return (m, s, .ok)

/-- `Frame.protectInto` with the output `{oo, on}` of the caller.
[src/frame_protector/s2a_frame_protector.cc:243-317] -/
def protectInto (L : Lib) (f : Nat → EvpFault) (s : Frame.State) (m : Bytes) (vs : List Ptr)
    (oo on : Nat) : Exec (Bytes × Frame.State × StatusCode) :=
  let n := (vs.map Ptr.len).sum
  protectLoop L f oo on (n + 2) 0 s m vs 0 (decide (n = 0)) n 0

/-- `Frame.unprotectInto` with the output `{oo, on}` of the caller: the memory, the status and the
`iov_len` of `unprotected_bytes` afterwards. [src/frame_protector/s2a_frame_protector.cc:319-377] -/
def unprotectInto (L : Lib) (f : Record.Fault) (s : Frame.State) (m : Bytes) (vs : List Ptr)
    (oo on : Nat) : Exec (Bytes × Frame.State × StatusCode × Nat) :=
  if Frame.numberBytesToUnprotect s (vs.map Ptr.len).sum = 0 then
    .ok (m, s, .failedPrecondition, on)
  else do
    match ← readHeader m Frame.kHeaderLength 0 vs 0 with
    | .error e => return (m, s, e, 0)
    | .ok (header, vs, at') =>
      match ← isolate vs at' (Frame.payloadSize header) with
      | .error e => return (m, s, e, 0)
      | .ok (payload, _, _) =>
        let (m, c, r) ← recordUnprotect L f s.conn header m payload oo on
        let s := { s with conn := c, evs := s.evs ++ [.opened r] }
        if r.code ≠ .ok then return (m, s, Frame.convertCode r.code, 0)
        else return (m, s, .ok, r.written)

end S2A.InPlace
