import Verif.Model.Proxy
import Verif.Model.Handshake
/-
`memcpy` and `memset` of no bytes.  Elsewhere in the model they are defined for every pointer.  The
standards of C and C++ that the code is written for ask for valid pointers even then, so a null
pointer is undefined behaviour.  Here the functions that can hand over a null pointer are modelled
again; each follows its counterpart in Model/Proxy.lean, Model/Context.lean, Model/Handshake.lean and Model/Aead.lean.
The other calls of `memcpy` (crypto/hkdf.cc:57, record_protocol/s2a_half_connection.cc:51, 72) copy
at least one byte.
-/
namespace S2A.NullCopy
open Proto Util

/-- Copy a string of bytes into a new vector of its length: `std::vector` has no memory for no
elements, `data()` is then null (libstdc++, libc++), and a field that is not in the message has a
null pointer. [src/handshaker/s2a_proxy.cc:306-313, 359-360] -/
def copy (d : Bytes) : Exec Bytes := if d.isEmpty then .error .nullDeref else .ok d

open Proxy in
/-- `Proxy.handleResult`. [src/handshaker/s2a_proxy.cc:258-353] -/
def handleResult (s : State) (r : SessionResult) : Exec (State × Option StatusCode) :=
  match r.state with
  | none => .ok (s, some .invalidArgument)
  | some st =>
    let s := { s with result := some HsResult.fresh }
    match tlsVersionFromProto st.tlsVersion with
    | .error c => .ok (s, some c)
    | .ok v =>
      let s := { s with result := some { HsResult.fresh with tlsVersion := v } }
      match ciphersuiteFromProto st.ciphersuite with
      | .error c => .ok (s, some c)
      | .ok cs => do
        let inKey ← copy st.inKey                                          -- lines 305-308
        let outKey ← copy st.outKey                                        -- lines 310-313
        let res : HsResult :=
          { HsResult.fresh with
            tlsVersion := v, ciphersuite := cs, inSecret := inKey, outSecret := outKey,
            inSequence := .ofNat st.inSequence, outSequence := .ofNat st.outSequence }
        match r.localIdentity with
        | none => return ({ s with result := some res }, some .internal)
        | some li =>
          return ({ s with
             result := some { res with
               localIdentity := identityFromProto (some li)
               connectionId := .ofNat st.connectionId }
             context := some
               { applicationProtocol := r.applicationProtocol
                 tlsVersion := v
                 ciphersuite := cs
                 peerIdentity := identityFromProto r.peerIdentity
                 localIdentity := identityFromProto (some li)
                 peerCertFingerprint := r.peerCertFingerprint
                 localCertFingerprint := r.localCertFingerprint
                 isHandshakeResumed := st.isHandshakeResumed } }, none)

open Proxy in
/-- `Proxy.getBytesForPeer`. [src/handshaker/s2a_proxy.cc:204-363] -/
def getBytesForPeer (dec : Bytes → Option SessionResp) (s : State) (bytes : Option Bytes) :
    Exec (State × Status) :=
  if bytes.getD [] == [] then .ok (s, .fail .failedPrecondition)
  else do
    let b ← copy (bytes.getD [])                                           -- line 218
    match dec b with
    | none => return (s, .fail .internal)
    | some resp =>
      match resp.status with
      | none => return (s, .fail .internal)
      | some status =>
        if status.code ≠ 0 then return (s, .fail .internal)
        else
          let s := match resp.localIdentity with
            | some i => { s with selected := some (identityFromProto (some i)) }
            | none => s
          match resp.result with
          | none => do
            let out ← copy resp.outFrames                                  -- lines 358-360
            return (s, ⟨.ok, resp.bytesConsumed, some out⟩)
          | some r => do
            match ← handleResult { s with finished := true } r with
            | (s, some c) => return (s, .fail c)
            | (s, none) =>
              let out ← copy resp.outFrames                                -- lines 358-360
              return (s, ⟨.ok, resp.bytesConsumed, some out⟩)

open Proxy in
/-- `Proxy.getBytesForS2A`: the serialised request is copied.
[src/handshaker/s2a_proxy.cc:170-202, 542-543, 693-694, 762-763] -/
def getBytesForS2A (e : Env) (s : State) (bytes : Option Bytes) : Exec (State × Status × Asked) :=
  match Proxy.getBytesForS2A e s bytes with
  | (s', st, asked) =>
    match st.buffer with
    | none => .ok (s', st, asked)
    | some b => do
      let b ← copy b
      return (s', { st with buffer := some b }, asked)

/-- `Context.serialize`: the serialised context is copied. [src/handshaker/s2a_context.cc:73-159] -/
def serialize (fail : Bool) (c : Context) : Exec (Except StatusCode Bytes) :=
  match c.serialize fail with
  | .error e => .ok (.error e)
  | .ok b => do
    let b ← copy b                                                         -- lines 154-157
    return .ok b

/-! ### The handler of handshake messages -/

/-- `Handler.store`. [src/record_protocol/handshake_message_handler.cc:182-199] -/
def store (h : Handler) (bytes : Bytes) : Exec Handler := do
  if h.ignoreFuture && h.inData then
    let t ← h.messageType
    if t = Handler.kTicketType then return h
  let b ← copy bytes                                                       -- lines 196-197
  return { h with fragments := h.fragments ++ [b] }

/-- `Handler.readFragment`. [src/record_protocol/handshake_message_handler.cc:70-115] -/
def readFragment (h : Handler) (rest : Bytes) : Exec (Handler × Bytes × Bool) :=
  if h.inData = false then
    if h.hdrExp ≤ rest.length then do
      let n := h.hdrExp
      let h ← store h (rest.take n)
      let h := { h with hdrExp := Handler.kHeaderLen }
      let sz ← h.dataSizeFromHeader
      let h := { h with dataExp := sz, inData := decide (sz > 0) }
      return (h, rest.drop n, false)
    else do
      let h ← store h rest
      return ({ h with hdrExp := h.hdrExp - rest.length }, [], false)
  else
    if h.dataExp ≤ rest.length then do
      let n := h.dataExp
      let h ← store h (rest.take n)
      return ({ h with dataExp := 0, inData := false }, rest.drop n, true)
    else do
      let h ← store h rest
      return ({ h with dataExp := h.dataExp - rest.length }, [], false)

/-- `Handler.loop`. [src/record_protocol/handshake_message_handler.cc:68-158] -/
def loop : (fuel : Nat) → Handler → (rest : Bytes) → (ku tk : Bool) →
    Exec (Handler × Except StatusCode Handler.Result)
  | 0, _, _, _, _ => .error .diverges
  | fuel + 1, h, rest, ku, tk =>
    if rest.isEmpty then
      .ok (h, .ok ⟨h.expectingMore, ku, Handler.kInvalidKeyUpdateType, tk, h.numFull⟩)
    else do
      let (h, rest, full) ← readFragment h rest
      let t ← h.messageType
      if t = Handler.kKeyUpdateType then
        if full then
          if !rest.isEmpty then return (h, .error .internal)
          let kut := h.keyUpdateType
          let h := { h with fragments := [] }
          return (h, .ok ⟨h.expectingMore, true, kut, tk, h.numFull⟩)
        else loop fuel h rest true tk
      else if t = Handler.kTicketType then
        if full then
          let h ← if h.ignoreFuture then pure h else h.addTicket
          loop fuel { h with fragments := [] } rest ku true
        else loop fuel h rest ku true
      else return (h, .error .internal)

/-- `Handler.process`. [src/record_protocol/handshake_message_handler.cc:49-159] -/
def process (h : Handler) (plaintext : Bytes) :
    Exec (Handler × Except StatusCode Handler.Result) :=
  loop (plaintext.length + 1) h plaintext false false

/-- The fragments of a ticket are copied into a string, which is never null.
[src/record_protocol/s2a_crypter.cc:570-576] -/
def merge : List Bytes → Exec Bytes
  | [] => .ok []
  | f :: fs => do
    let b ← copy f
    let r ← merge fs
    return b ++ r

/-- `GetStoredTickets`, and the copies of the tickets that the caller makes.
[src/record_protocol/s2a_crypter.cc:553-579] -/
def getStoredTickets (h : Handler) : Exec (Handler × Except StatusCode (List Bytes)) := do
  match ← h.getStoredTickets with
  | (h, .error e) => return (h, .error e)
  | (h, .ok ts) =>
    let ts ← ts.mapM merge
    return (h, .ok ts)

/-- A call to the handler. [src/record_protocol/handshake_message_handler.h:86-100] -/
inductive HOp
  | process (plaintext : Bytes)
  | tickets

/-- The handler after some calls; what they return is not needed.
[src/record_protocol/handshake_message_handler.cc:49-180] -/
def after : Handler → List HOp → Exec Handler
  | h, [] => .ok h
  | h, .process b :: ops => do
    let (h, _) ← h.process b
    after h ops
  | h, .tickets :: ops => do
    let (h, _) ← h.getStoredTickets
    after h ops

/-! ### `Decrypt` of the crypters that use the EVP interface -/

open Aead

/-- `memset(plaintext.iov_base, 0x00, plaintext.iov_len)`.
[src/crypto/aes_gcm_crypter.cc:80, 86, 91, 324, 347, 354, 368] -/
def clear (out : Iovec) (n : Nat) : Exec Bytes :=
  match out with
  | .null _ => .error .nullDeref
  | .buf _ => .ok (zeros n)

/-- `Aead.decLoop`; `o` is the output buffer. [src/crypto/aes_gcm_crypter.cc:313-365,
src/crypto/chacha_poly_crypter_openssl.cc:319-371] -/
def decLoop (L : Lib) (f : EvpFault) (o : Iovec) : Nat → Ctx → (out : Bytes) →
    (off rem total : Nat) → (cur : Bytes) → List Iovec → Exec (Bytes × Except StatusCode DecState)
  | _, c, out, _, rem, total, cur, [] => .ok (out, .ok ⟨c, cur, total, rem, []⟩)
  | k, c, out, off, rem, total, cur, v :: vs =>
    if total ≤ kTagSize then .ok (out, .ok ⟨c, cur, total, rem, v :: vs⟩)
    else if v.len = 0 then decLoop L f o (k + 1) c out off rem total [] vs
    else match v with
      | .null _ => do
        let z ← clear o out.length
        return (z, .error .invalidArgument)
      | .buf d =>
        let btw := if d.length > total - kTagSize then total - kTagSize else d.length
        if rem < btw then .ok (out, .error .invalidArgument)
        else if intBound ≤ btw then .error .intRange
        else if f.update k then do
          let z ← clear o out.length
          return (z, .error .internal)
        else do
          let (p, c') := c.decUpdate L (d.take btw)
          let out' ← writeAt out off p
          let rem' ← subSize rem p.length
          let total' ← subSize total p.length
          decLoop L f o (k + 1) c' out' (off + p.length) rem' total' (d.drop btw) vs

/-- `Aead.gatherTag`. [src/crypto/aes_gcm_crypter.cc:384-390] -/
def gatherTag : (tag : Bytes) → List Iovec → Exec Bytes
  | tag, [] => .ok tag
  | tag, v :: vs =>
    match v with
    | .null _ => .error .nullDeref
    | .buf d => do
      let tag' ← tagAppend tag d
      gatherTag tag' vs

/-- `Aead.evpDecrypt`. [src/crypto/aes_gcm_crypter.cc:272-398,
src/crypto/chacha_poly_crypter_openssl.cc:278-404] -/
def evpDecrypt (L : Lib) (f : EvpFault) (alg : Alg) (key nonce : Bytes)
    (aad ciphertextAndTag : List Iovec) (out : Iovec) : Exec Result :=
  if ¬ out.WF then .error .assertFail
  else
    let ob := out.bytes
    let total := totalLen ciphertextAndTag
    if total < kTagSize then .ok ⟨.invalidArgument, 0, out⟩
    else if nonce.length ≠ kNonceSize then .ok ⟨.invalidArgument, 0, out⟩
    else if f.init then .ok ⟨.internal, 0, out⟩
    else do
      match ← setAad f 0 ⟨alg, key, nonce, [], []⟩ aad with
      | .error e => return ⟨e, 0, out⟩
      | .ok c =>
        match ← decLoop L f out 0 c ob 0 ob.length total [] ciphertextAndTag with
        | (ob', .error e) => return ⟨e, 0, out.setBytes ob'⟩
        | (ob', .ok s) =>
          if s.total > kTagSize then do
            let z ← clear out ob'.length
            return ⟨.internal, 0, out.setBytes z⟩
          else
            let tag ← tagAppend [] s.cur
            let tag ← gatherTag tag s.rest
            if tag.length ≠ kTagSize then .error .uninitialized
            else if f.tag then do
              let z ← clear out ob'.length
              return ⟨.internal, 0, out.setBytes z⟩
            else if f.final || decide (s.ctx.tag L ≠ tag) then do
              let z ← clear out ob'.length
              return ⟨.internal, 0, out.setBytes z⟩
            else
              let w ← subSize ob.length s.rem
              return ⟨.ok, w, out.setBytes ob'⟩

end S2A.NullCopy
