import Verif.Model.Text
/-
The error queue of the cryptographic library.

OpenSSL and BoringSSL keep a queue of errors for each thread.  A call of the library that fails
appends to it; nothing empties it but `GetSSLErrors` (and whoever else uses the library on this
thread).  The functions here are those of Model/TextCrypto.lean and Model/Text.lean once more, with
the queue as an argument and as one more result, instead of a text for what it holds:
Lemmas/ErrQueue.lean proves that, but for the queue, they are the same functions.

`es` is what the library appends if one of its calls fails (at most one does, for every function
here returns after the first).  Calls that succeed append nothing.
-/
namespace S2A

/-- The error queue of the thread, oldest first; an entry is the line that `ERR_print_errors` prints
for it. [OpenSSL/BoringSSL, called by src/crypto/s2a_aead_crypter_util.cc:29] -/
abbrev ErrQueue := List String

/-- `GetSSLErrors` (s2a_aead_crypter_util.cc:27-35): `ERR_print_errors` prints all errors and
empties the queue.  That `BIO_new` fails is not modelled. -/
def getSSLErrors (q : ErrQueue) : String × ErrQueue := (String.join q, [])

namespace Aead

/-- `SetAadForEncrypt` / `SetAadForDecrypt` (aes_gcm_crypter.cc:100-156;
chacha_poly_crypter_openssl.cc:105-161). -/
def setAadQ (f : EvpFault) (es q : ErrQueue) :
    Nat → Ctx → List Iovec → Exec (Except (StatusCode × String) Ctx × ErrQueue)
  | _, c, [] => .ok (.ok c, q)
  | k, c, v :: vs =>
    if v.len = 0 then setAadQ f es q (k + 1) c vs
    else match v with
      | .null _ => .ok (.error (.invalidArgument, aadNullText c.alg), q)
      | .buf d =>
        if intBound ≤ d.length then .error .intRange
        else if f.aad k then
          let (t, q) := getSSLErrors (q ++ es)
          .ok (.error (.internal, "Setting authenticated associated data failed. " ++ t), q)
        else setAadQ f es q (k + 1) { c with aad := c.aad ++ d } vs

/-- The encryption loop (aes_gcm_crypter.cc:192-231; chacha_poly_crypter_openssl.cc:202-237).  If
there is no room, `GetSSLErrors` is called although no call of the library has failed. -/
def encLoopQ (L : Lib) (f : EvpFault) (es q : ErrQueue) :
    Nat → Ctx → (out : Bytes) → (off rem : Nat) → List Iovec →
    Exec ((Bytes × Except (StatusCode × String) (Ctx × Nat × Nat)) × ErrQueue)
  | _, c, out, off, rem, [] => .ok ((out, .ok (c, off, rem)), q)
  | k, c, out, off, rem, v :: vs =>
    if v.len = 0 then encLoopQ L f es q (k + 1) c out off rem vs
    else match v with
      | .null _ => .ok ((out, .error (.invalidArgument, plaintextNullText c.alg)), q)
      | .buf d =>
        if rem < d.length then
          let (t, q) := getSSLErrors q
          .ok ((out, .error (.invalidArgument,
            "|ciphertext_and_tag| is not large enough to hold " ++
            "the result of encrypting |plaintext|. " ++ t)), q)
        else if intBound ≤ d.length then .error .intRange
        else if f.update k then
          let (t, q) := getSSLErrors (q ++ es)
          .ok ((out, .error (.internal, "Encrypting |plaintext| failed. " ++ t)), q)
        else do
          let (o, c') := c.encUpdate L d
          let out' ← writeAt out off o
          let rem' ← subSize rem o.length
          encLoopQ L f es q (k + 1) c' out' (off + o.length) rem' vs

/-- `Encrypt` of the crypters on the EVP interface (aes_gcm_crypter.cc:168-270;
chacha_poly_crypter_openssl.cc:178-276). -/
def evpEncryptQ (L : Lib) (f : EvpFault) (es q : ErrQueue) (alg : Alg) (key nonce : Bytes)
    (aad plaintext : List Iovec) (out : Iovec) : Exec ((Result × String) × ErrQueue) :=
  match out with
  | .null _ => .error .assertFail
  | .buf ob =>
    if nonce.length ≠ kNonceSize then .ok ((⟨.invalidArgument, 0, out⟩, nonceLengthText alg), q)
    else if f.init then
      let (t, q) := getSSLErrors (q ++ es)
      .ok ((⟨.internal, 0, out⟩, encryptInitText alg ++ t), q)
    else do
      match ← setAadQ f es q 0 ⟨alg, key, nonce, [], []⟩ aad with
      | (.error (e, m), q) => return ((⟨e, 0, out⟩, m), q)
      | (.ok c, q) =>
        match ← encLoopQ L f es q 0 c ob 0 ob.length plaintext with
        | ((ob', .error (e, m)), q) => return ((⟨e, 0, .buf ob'⟩, m), q)
        | ((ob', .ok (c', off, rem)), q) =>
          if f.final then
            let (t, q) := getSSLErrors (q ++ es)
            return ((⟨.internal, 0, .buf ob'⟩, "Finalizing encryption failed. " ++ t), q)
          else if rem < kTagSize then
            return ((⟨.invalidArgument, 0, .buf ob'⟩, noRoomForTagText alg), q)
          else if f.tag then
            let (t, q) := getSSLErrors (q ++ es)
            return ((⟨.internal, 0, .buf ob'⟩, "Writing tag failed. " ++ t), q)
          else
            let ob'' ← writeAt ob' off (c'.tag L)
            let rem' ← subSize rem kTagSize
            let w ← subSize ob.length rem'
            return ((⟨.ok, w, .buf ob''⟩, ""), q)

/-- The decryption loop (aes_gcm_crypter.cc:313-365; chacha_poly_crypter_openssl.cc:319-371). -/
def decLoopQ (L : Lib) (f : EvpFault) (es q : ErrQueue) :
    Nat → Ctx → (out : Bytes) → (off rem total : Nat) → (cur : Bytes) → List Iovec →
    Exec ((Bytes × Except (StatusCode × String) DecState) × ErrQueue)
  | _, c, out, _, rem, total, cur, [] => .ok ((out, .ok ⟨c, cur, total, rem, []⟩), q)
  | k, c, out, off, rem, total, cur, v :: vs =>
    if total ≤ kTagSize then .ok ((out, .ok ⟨c, cur, total, rem, v :: vs⟩), q)
    else if v.len = 0 then decLoopQ L f es q (k + 1) c out off rem total [] vs
    else match v with
      | .null _ =>
        .ok ((zeros out.length,
          .error (.invalidArgument, "|ciphertext_and_tag| has an invalid component.")), q)
      | .buf d =>
        let btw := if d.length > total - kTagSize then total - kTagSize else d.length
        if rem < btw then
          .ok ((out, .error (.invalidArgument,
            "|plaintext| is too small to hold the decrypted ciphertext.")), q)
        else if intBound ≤ btw then .error .intRange
        else if f.update k then
          let (t, q) := getSSLErrors (q ++ es)
          .ok ((zeros out.length, .error (.internal, "Decrypting ciphertext failed. " ++ t)), q)
        else do
          let (o, c') := c.decUpdate L (d.take btw)
          let out' ← writeAt out off o
          let rem' ← subSize rem o.length
          let total' ← subSize total o.length
          decLoopQ L f es q (k + 1) c' out' (off + o.length) rem' total' (d.drop btw) vs

/-- `Decrypt` of the crypters on the EVP interface (aes_gcm_crypter.cc:272-398;
chacha_poly_crypter_openssl.cc:278-404). -/
def evpDecryptQ (L : Lib) (f : EvpFault) (es q : ErrQueue) (alg : Alg) (key nonce : Bytes)
    (aad ciphertextAndTag : List Iovec) (out : Iovec) : Exec ((Result × String) × ErrQueue) :=
  if ¬ out.WF then .error .assertFail
  else
    let ob := out.bytes
    let total := totalLen ciphertextAndTag
    if total < kTagSize then
      .ok ((⟨.invalidArgument, 0, out⟩, "|ciphertext_and_tag| is too small to hold a tag."), q)
    else if nonce.length ≠ kNonceSize then
      .ok ((⟨.invalidArgument, 0, out⟩, nonceLengthText alg), q)
    else if f.init then
      let (t, q) := getSSLErrors (q ++ es)
      .ok ((⟨.internal, 0, out⟩, decryptInitText alg ++ t), q)
    else do
      match ← setAadQ f es q 0 ⟨alg, key, nonce, [], []⟩ aad with
      | (.error (e, m), q) => return ((⟨e, 0, out⟩, m), q)
      | (.ok c, q) =>
        match ← decLoopQ L f es q 0 c ob 0 ob.length total [] ciphertextAndTag with
        | ((ob', .error (e, m)), q) => return ((⟨e, 0, out.setBytes ob'⟩, m), q)
        | ((ob', .ok s), q) =>
          if s.total > kTagSize then
            let (t, q) := getSSLErrors q
            return ((⟨.internal, 0, out.setBytes (zeros ob'.length)⟩,
              "Not enough plaintext buffer to hold encrypted ciphertext. " ++ t), q)
          else
            let tag ← tagAppend [] s.cur
            let tag ← gatherTag tag s.rest
            if tag.length ≠ kTagSize then .error .uninitialized
            else if f.tag then
              let (t, q) := getSSLErrors (q ++ es)
              return ((⟨.internal, 0, out.setBytes (zeros ob'.length)⟩,
                "Setting tag failed. " ++ t), q)
            else if f.final || decide (s.ctx.tag L ≠ tag) then
              let (t, q) := getSSLErrors (q ++ es)
              return ((⟨.internal, 0, out.setBytes (zeros ob'.length)⟩,
                "Checking tag failed: " ++ t), q)
            else
              let w ← subSize ob.length s.rem
              return ((⟨.ok, w, out.setBytes ob'⟩, ""), q)

/-- `Encrypt` with BoringSSL (chacha_poly_crypter_boringssl.cc:52-137). -/
def boringEncryptQ (L : Lib) (f : EvpFault) (es q : ErrQueue) (alg : Alg) (key nonce : Bytes)
    (aad plaintext : List Iovec) (out : Iovec) : Exec ((Result × String) × ErrQueue) :=
  match out with
  | .null _ => .error .assertFail
  | .buf ob =>
    if nonce.length ≠ kNonceSize then
      .ok ((⟨.invalidArgument, 0, out⟩, "|nonce| has invalid length."), q)
    else if hasBadNull plaintext then
      .ok ((⟨.invalidArgument, 0, out⟩, "non-zero plaintext length but plaintext is nullptr."), q)
    else
      let inLen := totalLen plaintext
      if ob.length < kTagSize + inLen then
        .ok ((⟨.invalidArgument, 0, out⟩,
          "|ciphertext_and_tag| is too small to hold the resulting ciphertext and tag."), q)
      else
        let inVec := flat plaintext
        if hasBadNull aad then
          .ok ((⟨.invalidArgument, 0, out⟩, "non-zero aad length but |aad| is nullptr."), q)
        else
          let aadVec := flat aad
          if f.oneShot then
            let (t, q) := getSSLErrors (q ++ es)
            .ok ((⟨.internal, 0, .buf (zeros ob.length)⟩, "seal operation failed. " ++ t), q)
          else do
            let ct := xorKs (L.ks alg key nonce) 0 inVec
            let sealed := ct ++ L.mac alg key nonce aadVec ct
            let ob' ← writeAt ob 0 sealed
            let rest ← subSize ob.length sealed.length
            let w ← subSize ob.length rest
            return ((⟨.ok, w, .buf ob'⟩, ""), q)

/-- `Decrypt` with BoringSSL (chacha_poly_crypter_boringssl.cc:139-234). -/
def boringDecryptQ (L : Lib) (f : EvpFault) (es q : ErrQueue) (alg : Alg) (key nonce : Bytes)
    (aad ciphertextAndTag : List Iovec) (out : Iovec) : Exec ((Result × String) × ErrQueue) :=
  if ¬ out.WF then .error .assertFail
  else
    let ob := out.bytes
    if nonce.length ≠ kNonceSize then
      .ok ((⟨.invalidArgument, 0, out⟩, "|nonce| has invalid length."), q)
    else if hasBadNull ciphertextAndTag then
      .ok ((⟨.invalidArgument, 0, out⟩, "non-zero ciphertext length but ciphertext is nullptr."), q)
    else
      let inLen := totalLen ciphertextAndTag
      if inLen < kTagSize then
        .ok ((⟨.invalidArgument, 0, out⟩, "|ciphertext_and_tag| is too small to hold a tag."), q)
      else if ob.length < inLen - kTagSize then
        .ok ((⟨.invalidArgument, 0, out⟩,
          "|plaintext| is too small to hold the resulting plaintext."), q)
      else
        let inVec := flat ciphertextAndTag
        if hasBadNull aad then
          .ok ((⟨.invalidArgument, 0, out⟩, "non-zero aad length but |aad| is nullptr."), q)
        else
          let aadVec := flat aad
          let ct := inVec.take (inVec.length - kTagSize)
          let tag := inVec.drop (inVec.length - kTagSize)
          if f.oneShot || decide (L.mac alg key nonce aadVec ct ≠ tag) then
            let (t, q) := getSSLErrors (q ++ es)
            .ok ((⟨.internal, 0, out.setBytes (zeros ob.length)⟩, "open operation failed. " ++ t), q)
          else do
            let pt := xorKs (L.ks alg key nonce) 0 ct
            let ob' ← writeAt ob 0 pt
            let rest ← subSize ob.length pt.length
            let w ← subSize ob.length rest
            return ((⟨.ok, w, out.setBytes ob'⟩, ""), q)

/-- `S2AAeadCrypter::Encrypt`. [src/crypto/s2a_aead_crypter.h:82] -/
def Crypter.encryptQ (L : Lib) (f : EvpFault) (es q : ErrQueue) (c : Crypter) (nonce : Bytes)
    (aad plaintext : List Iovec) (out : Iovec) : Exec ((Result × String) × ErrQueue) :=
  if L.boring && decide (c.alg = .chachaPoly) then
    boringEncryptQ L f es q c.alg c.key nonce aad plaintext out
  else evpEncryptQ L f es q c.alg c.key nonce aad plaintext out

/-- `S2AAeadCrypter::Decrypt`. [src/crypto/s2a_aead_crypter.h:101] -/
def Crypter.decryptQ (L : Lib) (f : EvpFault) (es q : ErrQueue) (c : Crypter) (nonce : Bytes)
    (aad ciphertextAndTag : List Iovec) (out : Iovec) : Exec ((Result × String) × ErrQueue) :=
  if L.boring && decide (c.alg = .chachaPoly) then
    boringDecryptQ L f es q c.alg c.key nonce aad ciphertextAndTag out
  else evpDecryptQ L f es q c.alg c.key nonce aad ciphertextAndTag out

/-- `CreateAesGcmAeadCrypter` (aes_gcm_crypter.cc:404-434). -/
def createAesGcmQ (fail : Bool) (es q : ErrQueue) (key : Bytes) :
    Except (StatusCode × String) Crypter × ErrQueue :=
  if key.length = kAes128KeySize then
    if fail then
      let (t, q) := getSSLErrors (q ++ es)
      (.error (.internal, "Initialization of |EVP_AEAD_CTX| failed: " ++ t), q)
    else (.ok ⟨.aes128gcm, key⟩, q)
  else if key.length = kAes256KeySize then
    if fail then
      let (t, q) := getSSLErrors (q ++ es)
      (.error (.internal, "Initialization of |EVP_AEAD_CTX| failed: " ++ t), q)
    else (.ok ⟨.aes256gcm, key⟩, q)
  else (.error (.failedPrecondition, "AES-GCM key size is not supported."), q)

/-- `CreateChachaPolyAeadCrypter` (chacha_poly_crypter_openssl.cc:410-437,
chacha_poly_crypter_boringssl.cc:240-260). -/
def createChachaPolyQ (fail : Bool) (es q : ErrQueue) (key : Bytes) :
    Except (StatusCode × String) Crypter × ErrQueue :=
  if key.length ≠ kChachaKeySize then (.error (.invalidArgument, "Key size is unsupported."), q)
  else if fail then
    let (t, q) := getSSLErrors (q ++ es)
    (.error (.internal, "Initialization of |EVP_AEAD_CTX| failed: " ++ t), q)
  else (.ok ⟨.chachaPoly, key⟩, q)

end Aead

namespace Hkdf

/-- The loop of `HkdfDerivation` (hkdf.cc:39-59).  The errors of a failing call stay in the
queue. -/
def loopQ (L : Lib) (h : HashFn) (f : HkdfFault) (late : Bool) (es q : ErrQueue)
    (prk info : Bytes) : (m i : Nat) → (buffer : Bytes) → (done : Nat) → (out : Bytes) →
    Exec (((StatusCode × Bytes) × String) × ErrQueue)
  | 0, _, _, _, out => .ok (((.ok, out), ""), q)
  | m + 1, i, buffer, done, out =>
    if f.step i then
      .ok (((.internal, out),
        if i = 0 || late then "Updating and finalizing HMAC failed." else "Updating HMAC failed."),
        q ++ es)
    else
      let msg := (if i = 0 then [] else buffer) ++ info ++ [UInt8.ofNat (i + 1)]
      let buffer' := L.hmac h prk msg
      do
        let todo ← todoLen done h.digestSize out.length
        let out' ← writeAt out done (buffer'.take todo)
        loopQ L h f late es q prk info m (i + 1) buffer' (done + todo) out'

/-- `HkdfDerivation` (hkdf.cc:30-61). -/
def derivationQ (L : Lib) (h : HashFn) (f : HkdfFault) (late : Bool) (es q : ErrQueue) (n : Nat)
    (prk info out : Bytes) : Exec (((StatusCode × Bytes) × String) × ErrQueue) :=
  if f.init then .ok (((.internal, out), "Initializing HMAC failed."), q ++ es)
  else loopQ L h f late es q prk info n 0 [] 0 out

/-- `HkdfDeriveSecret` (hkdf.cc:63-108). -/
def deriveSecretQ (L : Lib) (f : HkdfFault) (late : Bool) (es q : ErrQueue) (h : HashFn)
    (prk info out : Bytes) : Exec (((StatusCode × Bytes) × String) × ErrQueue) :=
  match h with
  | .other => .ok (((.invalidArgument, out), "|hash_function| is not supported."), q)
  | h =>
    if prk.length < h.digestSize then
      .ok (((.invalidArgument, out),
        "The size of |prk| must be at least the digest size of |hash_function|."), q)
    else
      let n := (out.length + h.digestSize - 1) / h.digestSize
      if n > 255 then .ok (((.internal, out), "Extracting too many bytes."), q)
      else if f.ctxNew then
        .ok (((.internal, out), "Could not generate new HMAC context."), q ++ es)
      else derivationQ L h f late es q n prk info out

end Hkdf

/-- `DeriveSecret` (s2a_half_connection.cc:58-77). -/
def deriveLabelQ (L : Lib) (f : HkdfFault) (late : Bool) (es q : ErrQueue) (cs : Ciphersuite)
    (suffix secret output : Bytes) : Exec (((StatusCode × Bytes) × String) × ErrQueue) :=
  match ciphersuiteToHash cs with
  | .error e => .ok (((e, output), "Unrecognized ciphersuite."), q)
  | .ok h => Hkdf.deriveSecretQ L f late es q h secret (labelLen output.length ++ suffix) output

/-- `AdvanceSecret` (s2a_half_connection.cc:40-54). -/
def advanceSecretQ (L : Lib) (f : HkdfFault) (es q : ErrQueue) (cs : Ciphersuite)
    (secret : Bytes) : Exec (((StatusCode × Bytes) × String) × ErrQueue) :=
  match ciphersuiteToHash cs with
  | .error e => .ok (((e, secret), "Unrecognized ciphersuite."), q)
  | .ok h => Hkdf.deriveSecretQ L f false es q h secret (labelLen secret.length ++ updSuffix) secret

namespace HalfConn

/-- The second `switch` of `Create` (s2a_half_connection.cc:146-155). -/
def createAeadQ (fail : Bool) (es q : ErrQueue) (cs : Ciphersuite) (key : Bytes) :
    Except (StatusCode × String) Aead.Crypter × ErrQueue :=
  match cs with
  | .aes128GcmSha256 => Aead.createAesGcmQ fail es q key
  | .aes256GcmSha384 => Aead.createAesGcmQ fail es q key
  | .chacha20Poly1305Sha256 => Aead.createChachaPolyQ fail es q key
  | .other _ => (.error (.invalidArgument, "Unexpected ciphersuite."), q)

/-- `S2AHalfConnection::Create` (s2a_half_connection.cc:102-169). -/
def createQ (L : Lib) (f : KeyFault) (late : Bool) (es q : ErrQueue) (cs : Ciphersuite)
    (sequence : UInt64) (secret : Bytes) :
    Exec (Except (StatusCode × String) HalfConn × ErrQueue) :=
  match sizes cs with
  | none => .ok (.error (.invalidArgument, "Unexpected ciphersuite."), q)
  | some (keySize, nonceSize, secretSize) =>
    if secret.length ≠ secretSize then
      .ok (.error (.invalidArgument, "|traffic_secret| size is incorrect."), q)
    else do
      let (((st, key), m), q) ← deriveLabelQ L f.key late es q cs keySuffix secret (zeros keySize)
      if st ≠ .ok then return (.error (st, m), q)
      let (((st, nonce), m), q) ←
        deriveLabelQ L f.nonce late es q cs ivSuffix secret (zeros nonceSize)
      if st ≠ .ok then return (.error (st, m), q)
      match createAeadQ f.create es q cs key with
      | (.error e, q) => return (.error e, q)
      | (.ok a, q) =>
        return (.ok { cs := cs, keySize := keySize, seq := sequence, overflowed := false,
                      alwaysFail := false, nonce := nonce, secret := secret, aead := a }, q)

/-- `S2AHalfConnection::Encrypt` (s2a_half_connection.cc:171-184). -/
def encryptQ (L : Lib) (f : EvpFault) (es q : ErrQueue) (hc : HalfConn)
    (aad plaintext : List Iovec) (out : Iovec) :
    Exec (((HalfConn × Option AeadCall × Aead.Result) × String) × ErrQueue) :=
  if hc.alwaysFail || hc.overflowed then
    .ok (((hc, none, ⟨.internal, 0, out⟩), "|S2AHalfConnection| is in unusable state."), q)
  else do
    let (n, hc') ← hc.nonceMask
    let call : AeadCall := ⟨hc.aead.key, n, flat aad, flat plaintext⟩
    let ((r, m), q) ← hc.aead.encryptQ L f es q call.nonce aad plaintext out
    return (((hc', some call, r), m), q)

/-- `S2AHalfConnection::Decrypt` (s2a_half_connection.cc:186-199). -/
def decryptQ (L : Lib) (f : EvpFault) (es q : ErrQueue) (hc : HalfConn)
    (aad ciphertextAndTag : List Iovec) (out : Iovec) :
    Exec (((HalfConn × Option AeadCall × Aead.Result) × String) × ErrQueue) :=
  if hc.alwaysFail || hc.overflowed then
    .ok (((hc, none, ⟨.internal, 0, out⟩), "|S2AHalfConnection| is in unusable state."), q)
  else do
    let (n, hc') ← hc.nonceMask
    let call : AeadCall := ⟨hc.aead.key, n, flat aad, flat ciphertextAndTag⟩
    let ((r, m), q) ← hc.aead.decryptQ L f es q call.nonce aad ciphertextAndTag out
    return (((hc', some call, r), m), q)

/-- `S2AHalfConnection::UpdateKey` (s2a_half_connection.cc:201-254), as `updateKey`.  Its message
is dropped by its only caller (s2a_crypter.cc:502-507). -/
def updateKeyQ (L : Lib) (f : KeyFault) (es q : ErrQueue) (hc : HalfConn) :
    Exec ((HalfConn × StatusCode) × ErrQueue) := do
  let (((st, secret), _), q) ← advanceSecretQ L f.advance es q hc.cs hc.secret
  let hc := { hc with secret := secret }
  if st ≠ .ok then return (({ hc with alwaysFail := true }, st), q)
  let (((st, key), _), q) ←
    deriveLabelQ L f.key false es q hc.cs keySuffix hc.secret (zeros hc.keySize)
  if st ≠ .ok then return (({ hc with alwaysFail := true }, st), q)
  let (((st, nonce), _), q) ←
    deriveLabelQ L f.nonce false es q hc.cs ivSuffix hc.secret hc.nonce
  let hc := { hc with nonce := nonce }
  if st ≠ .ok then return (({ hc with alwaysFail := true }, st), q)
  match createAeadQ f.create es q hc.cs key with
  | (.error e, q) => return (({ hc with alwaysFail := true }, e.1), q)
  | (.ok a, q) => return (({ hc with aead := a, seq := 0, overflowed := false }, .ok), q)

end HalfConn

namespace Record

/-- `S2ACrypter::Create` (s2a_crypter.cc:192-256). -/
def createQ (L : Lib) (fIn fOut : KeyFault) (lateIn lateOut : Bool) (esIn esOut q : ErrQueue)
    (a : CreateArgs) : Exec (Except (StatusCode × String) Conn × ErrQueue) :=
  if a.url.isEmpty then .ok (.error (.invalidArgument, "|handshaker_service_url| is empty."), q)
  else if !a.hasLogger then .ok (.error (.invalidArgument, "|logger| must not be nullptr."), q)
  else if !a.hasSender then
    .ok (.error (.invalidArgument, "|ticket_sender_function| must not be nullptr."), q)
  else if a.tlsVersion ≠ .tls1_3 then
    .ok (.error (.invalidArgument, "TLS 1.3 is the only supported TLS version."), q)
  else do
    match ← HalfConn.createQ L fIn lateIn esIn q a.ciphersuite a.inSequence a.inSecret with
    | (.error e, q) => return (.error e, q)
    | (.ok inC, q) =>
      match ← HalfConn.createQ L fOut lateOut esOut q a.ciphersuite a.outSequence a.outSecret with
      | (.error e, q) => return (.error e, q)
      | (.ok outC, q) =>
        return (.ok { connectionId := a.connectionId, url := a.url,
                      localIdentity := a.localIdentity, inC := inC, outC := outC,
                      closeNotify := false, handler := .init, phase := .notReceived,
                      expecting := false, hasFactory := a.hasFactory, sent := [] }, q)

/-- `S2ACrypter::Protect` (s2a_crypter.cc:258-331). -/
def protectQ (L : Lib) (f : EvpFault) (es q : ErrQueue) (c : Conn) (rt : RecordType)
    (plaintext : List Iovec) (record : Iovec) : Exec (((Conn × Result) × Said) × ErrQueue) :=
  let n := totalLen plaintext
  if n > kMaxPlaintext then
    let error := "|plaintext| contains more bytes than are allowed in a single TLS 1.3 record."
    .ok (((c, ⟨.failedPrecondition, 0, record, none, none, none⟩), ⟨[error], error⟩), q)
  else if record.len < n + c.recordOverhead then
    let error := "|record| is not large enough to hold the TLS 1.3 record built from |plaintext|."
    .ok (((c, ⟨.failedPrecondition, 0, record, none, none, none⟩), ⟨[error], error⟩), q)
  else
    let payloadSize := n + 1 + c.outC.tagLength
    match record with
    | .null _ => .error .assertFail
    | .buf rb => do
      let hdr := headerBytes payloadSize
      let rb ← writeAt rb 0 hdr
      match convertRecordType rt with
      | .error e =>
        return (((c, ⟨convertStatus e, 0, .buf rb, none, none, none⟩),
          ⟨["Unable to parse TLS record type."], "Unrecognized record type."⟩), q)
      | .ok t =>
        let payload := plaintext ++ [.buf [t]]
        let rest ← (Iovec.buf rb).slice kHeaderLength (rb.length - kHeaderLength)
        let (((outC, call, r), m), q) ← c.outC.encryptQ L f es q [.buf hdr] payload rest
        let c := { c with outC := outC }
        if r.status ≠ .ok then
          return (((c, ⟨convertStatus r.status, 0, .buf (zeros rb.length), call, none, none⟩),
            ⟨["Encryption failure: " ++ m], m⟩), q)
        else
          return (((c, ⟨.ok, r.written + kHeaderLength,
            .buf (rb.take kHeaderLength ++ r.out.bytes), call, none, none⟩), ⟨[], ""⟩), q)

/-- `HandleProcessHandshakeMessageResult` (s2a_crypter.cc:486-545). -/
def handleResultQ (L : Lib) (f : KeyFault) (es q : ErrQueue) (msg : String) (c : Conn)
    (r : Except StatusCode Handler.Result) :
    Exec (((Conn × StatusCode × Option StatusCode) × Said) × ErrQueue) :=
  match r with
  | .error e => .ok (((c, e, none), ⟨[], msg⟩), q)
  | .ok r =>
    let c := { c with expecting := r.expecting }
    if r.containsKeyUpdate then do
      let ((inC, st), q) ← c.inC.updateKeyQ L f es q
      let c := { c with inC := inC }
      if st ≠ .ok then
        return (((c, .internal, some st), ⟨["Key update failed."], "Key update failed."⟩), q)
      else
        let (c, log) ← handleTicketsT c r
        return (((c, .ok, some st), ⟨log, ""⟩), q)
    else do
      let (c, log) ← handleTicketsT c r
      return (((c, .ok, none), ⟨log, ""⟩), q)

/-- The part of `S2ACrypter::Unprotect` after a successful decryption (s2a_crypter.cc:381-476):
only handshake records can lead to a call of the library. -/
def dispatchQ (L : Lib) (f : KeyFault) (es q : ErrQueue) (c : Conn)
    (call : Option HalfConn.AeadCall) (pt : Bytes) (w : Nat) :
    Exec (((Conn × Result) × Said) × ErrQueue) := do
  match ← lastNonzero pt w with
  | none =>
    let error := "TLS 1.3 record does not have record type byte."
    return (((c, ⟨.invalidRecord, 0, .buf pt, call, none, some (pt.take w)⟩), ⟨[error], error⟩), q)
  | some (n, t) =>
    let zeroed : Iovec := .buf (zeros pt.length)
    if t = kAlert then
      if n < 2 then
        let error := "The TLS 1.3 alert record is too small."
        return (((c, ⟨.invalidRecord, 0, zeroed, call, none, some (pt.take w)⟩),
          ⟨[error], error⟩), q)
      else match pt[1]? with
        | none => .error .outOfBounds
        | some level =>
          if level = kCloseNotify then
            let error := "Received close notify alert."
            return ((({ c with closeNotify := true },
              ⟨.alertCloseNotify, 0, zeroed, call, none, some (pt.take w)⟩), ⟨[error], error⟩), q)
          else
            let error := "Received alert of type " ++ toString t.toNat ++ "."
            return (((c, ⟨.alertOther, 0, zeroed, call, none, some (pt.take w)⟩),
              ⟨[error], error⟩), q)
    else if t = kHandshake then
      let (h, r) ← c.handler.process (pt.take n)
      let msg := processMessage h
      let c := { c with handler := h }
      let (((c, st, rekey), said), q) ← handleResultQ L f es q msg c r
      if st ≠ .ok then
        let error := "Failed to process handshake message result: " ++ said.message
        return (((c, ⟨.internalError, 0, .buf pt, call, rekey, some (pt.take w)⟩),
          ⟨said.log ++ [error], error⟩), q)
      else return (((c, ⟨.ok, 0, .buf pt, call, rekey, some (pt.take w)⟩), ⟨said.log, ""⟩), q)
    else if t = kAppData then
      if c.expecting then
        let error := "Received a non handshake message while expecting a handshake message."
        return (((c, ⟨.invalidRecord, 0, .buf pt, call, none, some (pt.take w)⟩),
          ⟨[error], error⟩), q)
      else if c.phase = .receiving then
        let (c, log) ← retrieveAndSendT c
        return ((({ c with phase := .done }, ⟨.ok, n, .buf pt, call, none, some (pt.take w)⟩),
          ⟨log, ""⟩), q)
      else return (((c, ⟨.ok, n, .buf pt, call, none, some (pt.take w)⟩), ⟨[], ""⟩), q)
    else
      let error := "TLS record type byte " ++ toString t.toNat ++ " is invalid."
      return (((c, ⟨.invalidRecord, 0, zeroed, call, none, some (pt.take w)⟩), ⟨[error], error⟩), q)

/-- `S2ACrypter::Unprotect` (s2a_crypter.cc:333-477). -/
def unprotectQ (L : Lib) (f : Fault) (es q : ErrQueue) (c : Conn) (header : Iovec)
    (payload : List Iovec) (plaintext : Iovec) : Exec (((Conn × Result) × Said) × ErrQueue) :=
  if c.closeNotify then
    let error := "Close notify alert has been received. Close the connection."
    .ok (((c, ⟨.alertCloseNotify, 0, plaintext, none, none, none⟩), ⟨[error], error⟩), q)
  else
    let recordLength := header.len + totalLen payload
    if recordLength < c.recordOverhead then
      let error := "Did not receive a complete TLS 1.3 record."
      .ok (((c, ⟨.failedPrecondition, 0, plaintext, none, none, none⟩), ⟨[error], error⟩), q)
    else if recordLength > c.recordOverhead + kMaxPlaintext then
      let error := "TLS 1.3 record contains more bytes than allowed."
      .ok (((c, ⟨.alertRecordOverflow, 0, plaintext, none, none, none⟩), ⟨[error], error⟩), q)
    else if !validateHeader header recordLength then
      let error := "TLS 1.3 record header is invalid."
      .ok (((c, ⟨.failedPrecondition, 0, plaintext, none, none, none⟩), ⟨[error], error⟩), q)
    else do
      let (((inC, call, r), m), q) ← c.inC.decryptQ L f.evp es q [header] payload plaintext
      let c := { c with inC := inC }
      if r.status ≠ .ok then
        let error := "Decryption failed: " ++ m
        let z ← zeroOut r.out
        return (((c, ⟨.internalError, 0, z, call, none, none⟩), ⟨[error], error⟩), q)
      else match r.out with
        | .null _ => .error .assertFail
        | .buf pt => dispatchQ L f.key es q c call pt r.written

end Record

namespace Frame
open Record (Conn RecordType Code)

/-- `S2AFrameProtector::Create` (s2a_frame_protector.cc:192-220). -/
def createQ (L : Lib) (fIn fOut : KeyFault) (lateIn lateOut : Bool) (esIn esOut q : ErrQueue)
    (o : Options) : Exec (Except (StatusCode × String) State × ErrQueue) :=
  if !o.hasAllocator || !o.hasDestroy || !o.crypter.hasLogger then
    .ok (.error (.invalidArgument,
      "Failed to create |S2AFrameProtector| because of unexpected nullptr argument."), q)
  else do
    match ← Record.createQ L fIn fOut lateIn lateOut esIn esOut q
        { o.crypter with hasSender := true } with
    | (.error e, q) => return (.error e, q)
    | (.ok c, q) => return (.ok ⟨c, kMaxPlaintext + c.recordOverhead, 0, [], []⟩, q)

/-- A call of `crypter_->Protect`. [src/frame_protector/s2a_frame_protector.cc:292] -/
def State.crypterProtectQ (L : Lib) (f : EvpFault) (es q : ErrQueue) (s : State)
    (pt : List Iovec) (record : Iovec) : Exec (((State × Record.Result) × Said) × ErrQueue) := do
  let (((c, r), said), q) ← Record.protectQ L f es q s.conn .applicationData pt record
  return ((({ s with conn := c, evs := s.evs ++ [.sealed r] }, r), said), q)

/-- A call of `crypter_->Unprotect`. [src/frame_protector/s2a_frame_protector.cc:365, 450] -/
def State.crypterUnprotectQ (L : Lib) (f : Record.Fault) (es q : ErrQueue) (s : State)
    (header : Bytes) (payload : List Iovec) (out : Iovec) :
    Exec (((State × Record.Result) × Said) × ErrQueue) := do
  let (((c, r), said), q) ← Record.unprotectQ L f es q s.conn (.buf header) payload out
  return ((({ s with conn := c, evs := s.evs ++ [.opened r] }, r), said), q)

/-- The loop of `Protect` (s2a_frame_protector.cc:256-315); `es i` is what the library appends if a
call for the `i`-th record fails. -/
def protectLoopQ (L : Lib) (f : Nat → EvpFault) (es : Nat → ErrQueue) (id : BufId) :
    (fuel i : Nat) → State → (vs : List Iovec) → (on : Nat) → (first : Bool) → (rem idx : Nat) →
    (out : Iovec) → (log : List String) → ErrQueue →
    Exec (((State × StatusCode × Iovec) × Said) × ErrQueue)
  | 0, _, _, _, _, _, _, _, _, _, _ => .error .diverges
  | fuel + 1, i, s, vs, on, first, rem, idx, out, log, q =>
    if first || decide (rem > 0) then do
      let n := if rem < kMaxPlaintext then rem else kMaxPlaintext
      let (pieces, vs, on) ← collect vs on n
      let room ← subSize out.len idx
      let slot ← out.slice idx room
      let (((s, r), said), q) ← s.crypterProtectQ L (f i) (es i) q pieces slot
      let out := out.setBytes (out.bytes.take idx ++ r.out.bytes)
      if r.code ≠ .ok then
        return (((s.destroy id out.len, convertCode r.code, out),
          ⟨log ++ said.log ++ ["Failed to protect: " ++ said.message], said.message⟩), q)
      else if r.written ≠ n + s.conn.recordOverhead then
        let error := "Protected an unexpected number of bytes."
        return (((s.destroy id out.len, .internal, out), ⟨log ++ said.log ++ [error], error⟩), q)
      else
        protectLoopQ L f es id fuel (i + 1) s vs on false (rem - n) (idx + r.written) out
          (log ++ said.log) q
    else return (((s, .ok, out), ⟨log, ""⟩), q)

/-- The non-allocating `Protect` (s2a_frame_protector.cc:243-317). -/
def protectIntoQ (L : Lib) (f : Nat → EvpFault) (es : Nat → ErrQueue) (q : ErrQueue) (s : State)
    (id : BufId) (vs : List Iovec) (out : Iovec) :
    Exec (((State × StatusCode × Iovec) × Said) × ErrQueue) :=
  let n := totalLen vs
  protectLoopQ L f es id (n + 2) 0 s vs 0 (decide (n = 0)) n 0 out [] q

/-- The allocating `Protect` (s2a_frame_protector.cc:233-241). -/
def protectQ (L : Lib) (A : Allocator) (f : Nat → EvpFault) (es : Nat → ErrQueue) (q : ErrQueue)
    (s : State) (vs : List Iovec) : Exec (((State × Result) × Said) × ErrQueue) := do
  let (s, id, buf) := s.alloc A (numberBytesToProtect s (totalLen vs))
  let (((s, st, out), said), q) ← protectIntoQ L f es q s id vs buf
  if st ≠ .ok then return (((s.destroy id out.len, ⟨st, []⟩), said), q)
  else return (((s, ⟨.ok, [(id, out.bytes)]⟩), ⟨said.log, ""⟩), q)

/-- The non-allocating `Unprotect` (s2a_frame_protector.cc:319-377). -/
def unprotectIntoQ (L : Lib) (f : Record.Fault) (es q : ErrQueue) (s : State) (vs : List Iovec)
    (out : Iovec) : Exec (((State × StatusCode × Nat × Iovec) × Said) × ErrQueue) :=
  if numberBytesToUnprotect s (totalLen vs) = 0 then
    .ok (((s, .failedPrecondition, out.len, out), ⟨[], tooSmall⟩), q)
  else do
    match ← readHeaderT kHeaderLength 0 vs 0 with
    | .error (e, m) =>
      return (((s, e, 0, out), ⟨["Failed to compute TLS record size: " ++ m], m⟩), q)
    | .ok (header, vs, on) =>
      match ← isolate vs on (payloadSize header) with
      | .error e =>
        return (((s, e, 0, out),
          ⟨["Failed to isolate TLS payload: " ++ isolateMessage], isolateMessage⟩), q)
      | .ok (payload, _, _) =>
        let (((s, r), said), q) ← s.crypterUnprotectQ L f es q header payload out
        if r.code ≠ .ok then
          return (((s, convertCode r.code, 0, r.out),
            ⟨said.log ++ ["Failed to unprotect bytes from peer."], said.message⟩), q)
        else return (((s, .ok, r.written, r.out), ⟨said.log, ""⟩), q)

/-- The loop of the allocating `Unprotect` (s2a_frame_protector.cc:394-465). -/
def unprotectLoopQ (L : Lib) (A : Allocator) (f : Nat → Record.Fault) (es : Nat → ErrQueue) :
    (fuel i : Nat) → State → (vs : List Iovec) → (on rem : Nat) → (done : List (BufId × Bytes)) →
    (log : List String) → ErrQueue → Exec (((State × Result) × Said) × ErrQueue)
  | 0, _, _, _, _, _, _, _, _ => .error .diverges
  | fuel + 1, i, s, vs, on, rem, done, log, q =>
    if rem ≥ s.conn.recordOverhead then do
      match ← readHeaderT kHeaderLength 0 vs on with
      | .error (e, m) =>
        return (((s, ⟨e, []⟩), ⟨log ++ ["Failed to compute TLS record size: " ++ m], m⟩), q)
      | .ok (header, vs, on) =>
        let size := payloadSize header
        match ← isolate vs on size with
        | .error e =>
          return (((s, ⟨e, []⟩),
            ⟨log ++ ["Failed to isolate TLS payload: " ++ isolateMessage], isolateMessage⟩), q)
        | .ok (payload, vs, on) =>
          let (s, id, buf) := s.alloc A size
          let (((s, r), said), q) ← s.crypterUnprotectQ L (f i) (es i) q header payload buf
          if r.code ≠ .ok then
            let error := "Failed to unprotect bytes from peer: " ++ said.message
            return ((((s.destroy id buf.len).destroyAll done, ⟨convertCode r.code, []⟩),
              ⟨log ++ said.log ++ [error], error⟩), q)
          else do
            let rem ← subSize rem (kHeaderLength + size)
            unprotectLoopQ L A f es fuel (i + 1) s vs on rem
              (done ++ [(id, r.out.bytes.take r.written)]) (log ++ said.log) q
    else return (((s, ⟨.ok, done⟩), ⟨log, ""⟩), q)

/-- The allocating `Unprotect` (s2a_frame_protector.cc:379-467). -/
def unprotectQ (L : Lib) (A : Allocator) (f : Nat → Record.Fault) (es : Nat → ErrQueue)
    (q : ErrQueue) (s : State) (vs : List Iovec) : Exec (((State × Result) × Said) × ErrQueue) :=
  let n := totalLen vs
  if n < s.conn.recordOverhead then .ok (((s, ⟨.failedPrecondition, []⟩), ⟨[], tooSmall⟩), q)
  else unprotectLoopQ L A f es (n + 1) 0 s vs 0 n [] [] q

/-- One call (include/s2a_frame_protector.h:63-140). -/
def stepQ (L : Lib) (A : Allocator) (es : Nat → ErrQueue) (q : ErrQueue) (s : State) :
    Op → Exec (((State × Event) × Said) × ErrQueue)
  | .protect f vs => do
    let (((s, r), said), q) ← protectQ L A f es q s vs
    return (((s, .result r), said), q)
  | .protectInto f vs out => do
    let (((s, st, out), said), q) ← protectIntoQ L f es q s .caller vs out
    return (((s, .status st out.len out), said), q)
  | .unprotect f vs => do
    let (((s, r), said), q) ← unprotectQ L A f es q s vs
    return (((s, .result r), said), q)
  | .unprotectInto f vs out => do
    let (((s, st, len, out), said), q) ← unprotectIntoQ L f (es 0) q s vs out
    return (((s, .status st len out), said), q)

/-- A history of calls in one thread (the user of include/s2a_frame_protector.h), and the error
queue of this thread.  Between the calls the thread may itself use the library: `left` is the
queue that it leaves, given the one that it finds. -/
def runQ (L : Lib) (A : Allocator) :
    State → ErrQueue → List (Op × (Nat → ErrQueue) × (ErrQueue → ErrQueue)) →
    Exec ((State × List (Event × Said)) × ErrQueue)
  | s, q, [] => .ok ((s, []), q)
  | s, q, (op, es, left) :: ops => do
    let (((s, e), said), q) ← stepQ L A es (left q) s op
    let ((s, es), q) ← runQ L A s q ops
    return ((s, (e, said) :: es), q)

end Frame

namespace Proxy

/-- `CreateFrameProtector` (s2a_proxy.cc:784-807). -/
def createFrameProtectorQ (L : Lib) (fIn fOut : KeyFault) (lateIn lateOut : Bool)
    (esIn esOut q : ErrQueue) (s : State) :
    Exec (((State × Except StatusCode Frame.State) × Said) × ErrQueue) :=
  if !s.finished then
    .ok (((s, .error .failedPrecondition),
      ⟨["Handshake is not finished."], "Handshake is not finished."⟩), q)
  else match s.result with
    | none => .error .nullDeref
    | some r => do
      match ← Frame.createQ L fIn fOut lateIn lateOut esIn esOut q (frameOptions s r) with
      | (.ok p, q) => return ((({ s with hasFactory := false }, .ok p), ⟨[], ""⟩), q)
      | (.error (c, m), q) => return ((({ s with hasFactory := false }, .error c), ⟨[], m⟩), q)

end Proxy
end S2A
