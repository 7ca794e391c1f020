import Verif.Model.Prims
/-
The AEAD crypters:
  src/crypto/aes_gcm_crypter.cc, src/crypto/chacha_poly_crypter_openssl.cc (EVP
  streaming interface; the two files are line by line the same algorithm) and
  src/crypto/chacha_poly_crypter_boringssl.cc (one-shot interface).
-/
namespace S2A.Aead

/-- src/crypto/s2a_aead_constants.h:35-43. -/
abbrev kNonceSize : Nat := 12
/-- The tag size (src/crypto/s2a_aead_constants.h:38, 43). -/
abbrev kTagSize : Nat := 16
/-- Constant (src/crypto/s2a_aead_constants.h:35). -/
abbrev kAes128KeySize : Nat := 16
/-- Constant (src/crypto/s2a_aead_constants.h:36). -/
abbrev kAes256KeySize : Nat := 32
/-- Constant (src/crypto/s2a_aead_constants.h:41). -/
abbrev kChachaKeySize : Nat := 32

/-- `static_cast<int>(len)` keeps the value only below this bound.
[src/crypto/aes_gcm_crypter.cc:118, 148, 215] -/
def intBound : Nat := 2 ^ 31

/-- No buffer is longer than what `static_cast<int>` preserves. [precondition of
src/crypto/aes_gcm_crypter.cc:118, 148, 215] -/
def IntLens (vs : List Iovec) : Prop := ∀ v ∈ vs, v.len < intBound

/-- XOR with the key stream `s` from position `pos`. [library: the stream ciphers behind
src/crypto/aes_gcm_crypter.cc:213, 344] -/
def xorKs (s : Nat → UInt8) : Nat → Bytes → Bytes
  | _, [] => []
  | pos, b :: bs => (b ^^^ s pos) :: xorKs s (pos + 1) bs

/-- State of an `EVP_CIPHER_CTX` after initialisation with a nonce: the associated
data and the ciphertext absorbed so far.  Re-initialisation with a nonce clears both
(library contract). [src/crypto/aes_gcm_crypter.cc:39-72] -/
structure Ctx where
  alg : Alg
  key : Bytes
  nonce : Bytes
  aad : Bytes
  ct : Bytes

/-- `EVP_EncryptUpdate` with an output buffer: a stream cipher writes as many bytes as
it reads (library contract; the code's "more bytes written than expected" branches
are therefore unreachable and not modelled). [library call at
src/crypto/aes_gcm_crypter.cc:213-222] -/
def Ctx.encUpdate (L : Lib) (c : Ctx) (inp : Bytes) : Bytes × Ctx :=
  let o := xorKs (L.ks c.alg c.key c.nonce) c.ct.length inp
  (o, { c with ct := c.ct ++ o })

/-- `EVP_DecryptUpdate` with an output buffer. [library call at
src/crypto/aes_gcm_crypter.cc:344-352] -/
def Ctx.decUpdate (L : Lib) (c : Ctx) (inp : Bytes) : Bytes × Ctx :=
  (xorKs (L.ks c.alg c.key c.nonce) c.ct.length inp, { c with ct := c.ct ++ inp })

/-- The tag for everything absorbed (`EVP_CTRL_GCM_GET_TAG`). [library call at
src/crypto/aes_gcm_crypter.cc:258] -/
def Ctx.tag (L : Lib) (c : Ctx) : Bytes := L.mac c.alg c.key c.nonce c.aad c.ct

/-- `SetAadForEncrypt` / `SetAadForDecrypt` (src/crypto/aes_gcm_crypter.cc:100-126,
130-156; src/crypto/chacha_poly_crypter_openssl.cc has the same two functions): one
EVP update without output per non-empty buffer. -/
def setAad (f : EvpFault) : Nat → Ctx → List Iovec → Exec (Except StatusCode Ctx)
  | _, c, [] => .ok (.ok c)
  | k, c, v :: vs =>
    if v.len = 0 then setAad f (k + 1) c vs
    else match v with
      | .null _ => .ok (.error .invalidArgument)
      | .buf d =>
        if intBound ≤ d.length then .error .intRange
        else if f.aad k then .ok (.error .internal)
        else setAad f (k + 1) { c with aad := c.aad ++ d } vs

/-- Outcome of `Encrypt`/`Decrypt`: `CrypterStatus` (src/crypto/s2a_aead_crypter.h)
plus the contents of the output buffer afterwards. [src/crypto/s2a_aead_crypter.h:48-63] -/
structure Result where
  status : StatusCode
  written : Nat
  out : Iovec
  deriving DecidableEq, Repr

/-- The encryption loop (src/crypto/aes_gcm_crypter.cc:192-231,
src/crypto/chacha_poly_crypter_openssl.cc:202-237).  `out` is the whole output
buffer, `off` is `ciphertext_ptr` relative to it, `rem` is
`remaining_ciphertext_length`.  Also returns the buffer on the error paths. -/
def encLoop (L : Lib) (f : EvpFault) : Nat → Ctx → (out : Bytes) → (off rem : Nat) →
    List Iovec → Exec (Bytes × Except StatusCode (Ctx × Nat × Nat))
  | _, c, out, off, rem, [] => .ok (out, .ok (c, off, rem))
  | k, c, out, off, rem, v :: vs =>
    if v.len = 0 then encLoop L f (k + 1) c out off rem vs
    else match v with
      | .null _ => .ok (out, .error .invalidArgument)
      | .buf d =>
        if rem < d.length then .ok (out, .error .invalidArgument)
        else if intBound ≤ d.length then .error .intRange
        else if f.update k then .ok (out, .error .internal)
        else do
          let (o, c') := c.encUpdate L d
          let out' ← writeAt out off o
          let rem' ← subSize rem o.length
          encLoop L f (k + 1) c' out' (off + o.length) rem' vs

/-- `AesGcmS2AAeadCrypter::Encrypt` (src/crypto/aes_gcm_crypter.cc:168-270) and
`ChachaPolyS2AAeadCrypterOpenSSL::Encrypt`
(src/crypto/chacha_poly_crypter_openssl.cc:178-276). -/
def evpEncrypt (L : Lib) (f : EvpFault) (alg : Alg) (key nonce : Bytes)
    (aad plaintext : List Iovec) (out : Iovec) : Exec Result :=
  match out with
  | .null _ => .error .assertFail                                          -- line 173
  | .buf ob =>
    if nonce.length ≠ kNonceSize then .ok ⟨.invalidArgument, 0, out⟩       -- lines 42-45
    else if f.init then .ok ⟨.internal, 0, out⟩                            -- lines 46-50
    else do
      match ← setAad f 0 ⟨alg, key, nonce, [], []⟩ aad with
      | .error e => return ⟨e, 0, out⟩                                     -- lines 182-185
      | .ok c =>
        match ← encLoop L f 0 c ob 0 ob.length plaintext with
        | (ob', .error e) => return ⟨e, 0, .buf ob'⟩
        | (ob', .ok (c', off, rem)) =>
          if f.final then return ⟨.internal, 0, .buf ob'⟩                  -- lines 236-242
          else if rem < kTagSize then return ⟨.invalidArgument, 0, .buf ob'⟩ -- 252-257
          else if f.tag then return ⟨.internal, 0, .buf ob'⟩               -- lines 258-264
          else
            let ob'' ← writeAt ob' off (c'.tag L)
            let rem' ← subSize rem kTagSize                                -- lines 265-266
            let w ← subSize ob.length rem'                                 -- lines 268-269
            return ⟨.ok, w, .buf ob''⟩

/-- State of the decryption loop when it stops normally: cipher context, bytes of the
current buffer not yet consumed (`ciphertext_ptr`/`current_ciphertext_length`),
`total_ciphertext_and_tag_length`, `remaining_plaintext_length`, and the buffers from
index `i` on. [src/crypto/aes_gcm_crypter.cc:313-365] -/
structure DecState where
  ctx : Ctx
  cur : Bytes
  total : Nat
  rem : Nat
  rest : List Iovec

/-- The decryption loop (src/crypto/aes_gcm_crypter.cc:313-365,
src/crypto/chacha_poly_crypter_openssl.cc:319-371).  `out` is the whole plaintext
buffer, `off` is `plaintext_ptr` relative to it. -/
def decLoop (L : Lib) (f : EvpFault) : Nat → Ctx → (out : Bytes) → (off rem total : Nat) →
    (cur : Bytes) → List Iovec → Exec (Bytes × Except StatusCode DecState)
  | _, c, out, _, rem, total, cur, [] => .ok (out, .ok ⟨c, cur, total, rem, []⟩)
  | k, c, out, off, rem, total, cur, v :: vs =>
    if total ≤ kTagSize then .ok (out, .ok ⟨c, cur, total, rem, v :: vs⟩)     -- 314-316
    else if v.len = 0 then decLoop L f (k + 1) c out off rem total [] vs        -- 318-322
    else match v with
      | .null _ => .ok (zeros out.length, .error .invalidArgument)             -- 323-329
      | .buf d =>
        -- lines 331-336
        let btw := if d.length > total - kTagSize then total - kTagSize else d.length
        if rem < btw then .ok (out, .error .invalidArgument)                    -- 337-343
        else if intBound ≤ btw then .error .intRange
        else if f.update k then .ok (zeros out.length, .error .internal)        -- 344-352
        else do
          let (o, c') := c.decUpdate L (d.take btw)
          let out' ← writeAt out off o
          let rem' ← subSize rem o.length
          let total' ← subSize total o.length
          decLoop L f (k + 1) c' out' (off + o.length) rem' total' (d.drop btw) vs

/-- Append to the 16-byte array `tag` (src/crypto/aes_gcm_crypter.cc:377-390). -/
def tagAppend (tag w : Bytes) : Exec Bytes :=
  if tag.length + w.length ≤ kTagSize then .ok (tag ++ w) else .error .outOfBounds

/-- The loop collecting the rest of the tag (src/crypto/aes_gcm_crypter.cc:384-390).
There is no null check here: `memcpy` from a null pointer with a non-zero length. -/
def gatherTag : (tag : Bytes) → List Iovec → Exec Bytes
  | tag, [] => .ok tag
  | tag, v :: vs => do
    let w ← v.read 0 v.len
    let tag' ← tagAppend tag w
    gatherTag tag' vs

/-- `AesGcmS2AAeadCrypter::Decrypt` (src/crypto/aes_gcm_crypter.cc:272-398) and
`ChachaPolyS2AAeadCrypterOpenSSL::Decrypt`
(src/crypto/chacha_poly_crypter_openssl.cc:278-404), including
`DecryptInitContextUsingNonce` (56-69) and `DecryptCheckTagAndFinalize` (74-96). -/
def evpDecrypt (L : Lib) (f : EvpFault) (alg : Alg) (key nonce : Bytes)
    (aad ciphertextAndTag : List Iovec) (out : Iovec) : Exec Result :=
  if ¬ out.WF then .error .assertFail                                         -- 277-279
  else
    let ob := out.bytes
    let total := totalLen ciphertextAndTag                                     -- 283-286
    if total < kTagSize then .ok ⟨.invalidArgument, 0, out⟩                    -- 287-292
    else if nonce.length ≠ kNonceSize then .ok ⟨.invalidArgument, 0, out⟩
    else if f.init then .ok ⟨.internal, 0, out⟩
    else do
      match ← setAad f 0 ⟨alg, key, nonce, [], []⟩ aad with
      | .error e => return ⟨e, 0, out⟩                                         -- 301-304
      | .ok c =>
        match ← decLoop L f 0 c ob 0 ob.length total [] ciphertextAndTag with
        | (ob', .error e) => return ⟨e, 0, out.setBytes ob'⟩
        | (ob', .ok s) =>
          if s.total > kTagSize then                                           -- 367-374
            return ⟨.internal, 0, out.setBytes (zeros ob'.length)⟩
          else
            let tag ← tagAppend [] s.cur                                       -- 377-383
            let tag ← gatherTag tag s.rest                                     -- 384-390
            if tag.length ≠ kTagSize then .error .uninitialized
            else if f.tag then
              return ⟨.internal, 0, out.setBytes (zeros ob'.length)⟩           -- 78-83
            else if f.final || decide (s.ctx.tag L ≠ tag) then
              return ⟨.internal, 0, out.setBytes (zeros ob'.length)⟩           -- 85-89
            else
              let w ← subSize ob.length s.rem                                  -- 396-397
              return ⟨.ok, w, out.setBytes ob'⟩

/-- Does a list of buffers contain a null buffer of non-zero length? [the checks of
src/crypto/chacha_poly_crypter_boringssl.cc:52-234] -/
def hasBadNull (vs : List Iovec) : Bool := vs.any fun v => !decide v.WF

/-- `ChachaPolyS2AAeadCrypterBoringSSL::Encrypt`
(src/crypto/chacha_poly_crypter_boringssl.cc:52-137).  `EVP_AEAD_CTX_seal` writes
ciphertext and tag; on failure it clears the output buffer. -/
def boringEncrypt (L : Lib) (f : EvpFault) (alg : Alg) (key nonce : Bytes)
    (aad plaintext : List Iovec) (out : Iovec) : Exec Result :=
  match out with
  | .null _ => .error .assertFail                                            -- line 57
  | .buf ob =>
    if nonce.length ≠ kNonceSize then .ok ⟨.invalidArgument, 0, out⟩         -- lines 59-63
    else if hasBadNull plaintext then .ok ⟨.invalidArgument, 0, out⟩         -- lines 66-77
    else
      let inLen := totalLen plaintext
      if ob.length < kTagSize + inLen then .ok ⟨.invalidArgument, 0, out⟩    -- lines 80-85
      else
        let inVec := flat plaintext                                          -- lines 88-95
        if hasBadNull aad then .ok ⟨.invalidArgument, 0, out⟩                -- lines 100-106
        else
          let aadVec := flat aad                                             -- lines 98-113
          if f.oneShot then .ok ⟨.internal, 0, .buf (zeros ob.length)⟩       -- lines 124-131
          else do
            let ct := xorKs (L.ks alg key nonce) 0 inVec
            let sealed := ct ++ L.mac alg key nonce aadVec ct
            let ob' ← writeAt ob 0 sealed
            let rest ← subSize ob.length sealed.length                       -- lines 132-134
            let w ← subSize ob.length rest
            return ⟨.ok, w, .buf ob'⟩

/-- `ChachaPolyS2AAeadCrypterBoringSSL::Decrypt`
(src/crypto/chacha_poly_crypter_boringssl.cc:139-234).  `EVP_AEAD_CTX_open` clears the
output buffer when the tag does not match. -/
def boringDecrypt (L : Lib) (f : EvpFault) (alg : Alg) (key nonce : Bytes)
    (aad ciphertextAndTag : List Iovec) (out : Iovec) : Exec Result :=
  if ¬ out.WF then .error .assertFail                                         -- 144-146
  else
    let ob := out.bytes
    if nonce.length ≠ kNonceSize then .ok ⟨.invalidArgument, 0, out⟩          -- 148-152
    else if hasBadNull ciphertextAndTag then .ok ⟨.invalidArgument, 0, out⟩   -- 155-166
    else
      let inLen := totalLen ciphertextAndTag
      if inLen < kTagSize then .ok ⟨.invalidArgument, 0, out⟩                 -- 169-174
      else if ob.length < inLen - kTagSize then .ok ⟨.invalidArgument, 0, out⟩ -- 177-182
      else
        let inVec := flat ciphertextAndTag                                    -- 185-192
        if hasBadNull aad then .ok ⟨.invalidArgument, 0, out⟩                 -- 197-203
        else
          let aadVec := flat aad
          let ct := inVec.take (inVec.length - kTagSize)
          let tag := inVec.drop (inVec.length - kTagSize)
          if f.oneShot || decide (L.mac alg key nonce aadVec ct ≠ tag) then   -- 221-228
            .ok ⟨.internal, 0, out.setBytes (zeros ob.length)⟩
          else do
            let pt := xorKs (L.ks alg key nonce) 0 ct
            let ob' ← writeAt ob 0 pt
            let rest ← subSize ob.length pt.length
            let w ← subSize ob.length rest
            return ⟨.ok, w, out.setBytes ob'⟩

/-- An `S2AAeadCrypter` object: algorithm and key.  The nonce and tag lengths are the
same constants for all algorithms. [src/crypto/s2a_aead_crypter.h:36-146] -/
structure Crypter where
  alg : Alg
  key : Bytes
  deriving DecidableEq, Repr

/-- `CreateAesGcmAeadCrypter` (src/crypto/aes_gcm_crypter.cc:404-434); `fail` is a
failing library call. -/
def createAesGcm (fail : Bool) (key : Bytes) : Except StatusCode Crypter :=
  if key.length = kAes128KeySize then
    if fail then .error .internal else .ok ⟨.aes128gcm, key⟩
  else if key.length = kAes256KeySize then
    if fail then .error .internal else .ok ⟨.aes256gcm, key⟩
  else .error .failedPrecondition

/-- `CreateChachaPolyAeadCrypter`
(src/crypto/chacha_poly_crypter_openssl.cc:410-437, boringssl.cc:240-260).  For
OpenSSL builds without ChaCha20-Poly1305 (lines 421-424) see Model/NoChacha.lean. -/
def createChachaPoly (fail : Bool) (key : Bytes) : Except StatusCode Crypter :=
  if key.length ≠ kChachaKeySize then .error .invalidArgument
  else if fail then .error .internal
  else .ok ⟨.chachaPoly, key⟩

/-- Virtual call `S2AAeadCrypter::Encrypt` (src/crypto/s2a_aead_crypter.h).
[src/crypto/s2a_aead_crypter.h:82] -/
def Crypter.encrypt (L : Lib) (f : EvpFault) (c : Crypter) (nonce : Bytes)
    (aad plaintext : List Iovec) (out : Iovec) : Exec Result :=
  if L.boring && decide (c.alg = .chachaPoly) then
    boringEncrypt L f c.alg c.key nonce aad plaintext out
  else evpEncrypt L f c.alg c.key nonce aad plaintext out

/-- Virtual call `S2AAeadCrypter::Decrypt`. [src/crypto/s2a_aead_crypter.h:101] -/
def Crypter.decrypt (L : Lib) (f : EvpFault) (c : Crypter) (nonce : Bytes)
    (aad ciphertextAndTag : List Iovec) (out : Iovec) : Exec Result :=
  if L.boring && decide (c.alg = .chachaPoly) then
    boringDecrypt L f c.alg c.key nonce aad ciphertextAndTag out
  else evpDecrypt L f c.alg c.key nonce aad ciphertextAndTag out

/-- `S2AAeadCrypter::TagLength` (src/crypto/s2a_aead_crypter.cc:62). -/
def Crypter.tagLength (_ : Crypter) : Nat := kTagSize

/-- `S2AAeadCrypter::MaxPlaintextLength` (src/crypto/s2a_aead_crypter.cc:48-51): the
subtraction wraps for inputs shorter than a tag. -/
def maxPlaintextLength (n : Nat) : Exec Nat := subSize n kTagSize

/-- `S2AAeadCrypter::MaxCiphertextAndTagLength` (s2a_aead_crypter.cc:53-56). -/
def maxCiphertextAndTagLength (n : Nat) : Nat := n + kTagSize

end S2A.Aead
