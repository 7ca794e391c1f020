import Verif.Model.HalfConn
/-
The messages of the statuses that the AEAD crypters, the key derivation and the half connections
return.

The functions here are those of Model/Aead.lean, Model/Hkdf.lean and Model/HalfConn.lean again, with
the message as one more result (empty for success); Lemmas/TextCrypto.lean proves that without it
they are the same functions.  Most messages end with what `GetSSLErrors` returns: the text of
the error queue of the library, here a parameter `q`
(src/crypto/s2a_aead_crypter_util.cc:27-35; that `BIO_new` fails is not modelled).
-/
namespace S2A

/-- What the cryptographic library contributes to the message of a failing key derivation or AEAD
construction: the text of its error queue, and which of the calls for a block of HKDF failed (a
later one, at src/crypto/hkdf.cc:47-49, or one of the first two, at 41-43).
[src/crypto/s2a_aead_crypter_util.cc:27-35, src/crypto/hkdf.cc:39-52] -/
structure LibText where
  queue : String
  late : Bool
  deriving DecidableEq, Repr

namespace Aead

/-- The message for a nonce of the wrong length (aes_gcm_crypter.cc:44, 61;
chacha_poly_crypter_openssl.cc:45, 63; chacha_poly_crypter_boringssl.cc:61, 150). -/
def nonceLengthText : Alg → String
  | .chachaPoly => "|nonce| has invalid length."
  | _ => "|nonce| does not have the correct length."

/-- The message of a failing initialisation for encryption (aes_gcm_crypter.cc:49;
chacha_poly_crypter_openssl.cc:51). -/
def encryptInitText : Alg → String
  | .chachaPoly => "Initializing Chacha-Poly nonce failed. "
  | _ => "Initializing AES-GCM nonce failed. "

/-- The message of a failing initialisation for decryption (aes_gcm_crypter.cc:66;
chacha_poly_crypter_openssl.cc:69). -/
def decryptInitText : Alg → String
  | .chachaPoly => "Initializing ChachaPoly nonce failed. "
  | _ => "Initializing AES-GCM nonce failed. "

/-- The message for a null buffer of additional data (aes_gcm_crypter.cc:111, 141;
chacha_poly_crypter_openssl.cc:115, 145; chacha_poly_crypter_boringssl.cc:104, 201). -/
def aadNullText : Alg → String
  | .chachaPoly => "non-zero aad length but |aad| is nullptr."
  | _ => "Non-zero aad length but aad is nullptr."

/-- The message for a null buffer of plaintext (aes_gcm_crypter.cc:198;
chacha_poly_crypter_openssl.cc:209; chacha_poly_crypter_boringssl.cc:70). -/
def plaintextNullText : Alg → String
  | .chachaPoly => "non-zero plaintext length but plaintext is nullptr."
  | _ => "|plaintext| has an invalid component."

/-- The message if there is no room for the tag (aes_gcm_crypter.cc:255;
chacha_poly_crypter_openssl.cc:261-262). -/
def noRoomForTagText : Alg → String
  | .chachaPoly => "|ciphertext_and_tag| is too small to hold the resulting ciphertext and tag."
  | _ => "|ciphertext_and_tag| is too small to hold a tag."

/-- `SetAadForEncrypt` / `SetAadForDecrypt` (aes_gcm_crypter.cc:100-156;
chacha_poly_crypter_openssl.cc:105-161), as `setAad`. -/
def setAadT (f : EvpFault) (q : String) :
    Nat → Ctx → List Iovec → Exec (Except (StatusCode × String) Ctx)
  | _, c, [] => .ok (.ok c)
  | k, c, v :: vs =>
    if v.len = 0 then setAadT f q (k + 1) c vs
    else match v with
      | .null _ => .ok (.error (.invalidArgument, aadNullText c.alg))
      | .buf d =>
        if intBound ≤ d.length then .error .intRange
        else if f.aad k then
          .ok (.error (.internal, "Setting authenticated associated data failed. " ++ q))
        else setAadT f q (k + 1) { c with aad := c.aad ++ d } vs

/-- The encryption loop (aes_gcm_crypter.cc:192-231; chacha_poly_crypter_openssl.cc:202-237), as
`encLoop`. -/
def encLoopT (L : Lib) (f : EvpFault) (q : String) : Nat → Ctx → (out : Bytes) → (off rem : Nat) →
    List Iovec → Exec (Bytes × Except (StatusCode × String) (Ctx × Nat × Nat))
  | _, c, out, off, rem, [] => .ok (out, .ok (c, off, rem))
  | k, c, out, off, rem, v :: vs =>
    if v.len = 0 then encLoopT L f q (k + 1) c out off rem vs
    else match v with
      | .null _ => .ok (out, .error (.invalidArgument, plaintextNullText c.alg))
      | .buf d =>
        if rem < d.length then
          .ok (out, .error (.invalidArgument, "|ciphertext_and_tag| is not large enough to hold " ++
            "the result of encrypting |plaintext|. " ++ q))
        else if intBound ≤ d.length then .error .intRange
        else if f.update k then
          .ok (out, .error (.internal, "Encrypting |plaintext| failed. " ++ q))
        else do
          let (o, c') := c.encUpdate L d
          let out' ← writeAt out off o
          let rem' ← subSize rem o.length
          encLoopT L f q (k + 1) c' out' (off + o.length) rem' vs

/-- `Encrypt` of the crypters on the EVP interface (aes_gcm_crypter.cc:168-270;
chacha_poly_crypter_openssl.cc:178-276), as `evpEncrypt`. -/
def evpEncryptT (L : Lib) (f : EvpFault) (q : String) (alg : Alg) (key nonce : Bytes)
    (aad plaintext : List Iovec) (out : Iovec) : Exec (Result × String) :=
  match out with
  | .null _ => .error .assertFail
  | .buf ob =>
    if nonce.length ≠ kNonceSize then .ok (⟨.invalidArgument, 0, out⟩, nonceLengthText alg)
    else if f.init then .ok (⟨.internal, 0, out⟩, encryptInitText alg ++ q)
    else do
      match ← setAadT f q 0 ⟨alg, key, nonce, [], []⟩ aad with
      | .error (e, m) => return (⟨e, 0, out⟩, m)
      | .ok c =>
        match ← encLoopT L f q 0 c ob 0 ob.length plaintext with
        | (ob', .error (e, m)) => return (⟨e, 0, .buf ob'⟩, m)
        | (ob', .ok (c', off, rem)) =>
          if f.final then return (⟨.internal, 0, .buf ob'⟩, "Finalizing encryption failed. " ++ q)
          else if rem < kTagSize then return (⟨.invalidArgument, 0, .buf ob'⟩, noRoomForTagText alg)
          else if f.tag then return (⟨.internal, 0, .buf ob'⟩, "Writing tag failed. " ++ q)
          else
            let ob'' ← writeAt ob' off (c'.tag L)
            let rem' ← subSize rem kTagSize
            let w ← subSize ob.length rem'
            return (⟨.ok, w, .buf ob''⟩, "")

/-- The decryption loop (aes_gcm_crypter.cc:313-365; chacha_poly_crypter_openssl.cc:319-371), as
`decLoop`. -/
def decLoopT (L : Lib) (f : EvpFault) (q : String) :
    Nat → Ctx → (out : Bytes) → (off rem total : Nat) → (cur : Bytes) → List Iovec →
    Exec (Bytes × Except (StatusCode × String) DecState)
  | _, c, out, _, rem, total, cur, [] => .ok (out, .ok ⟨c, cur, total, rem, []⟩)
  | k, c, out, off, rem, total, cur, v :: vs =>
    if total ≤ kTagSize then .ok (out, .ok ⟨c, cur, total, rem, v :: vs⟩)
    else if v.len = 0 then decLoopT L f q (k + 1) c out off rem total [] vs
    else match v with
      | .null _ =>
        .ok (zeros out.length,
          .error (.invalidArgument, "|ciphertext_and_tag| has an invalid component."))
      | .buf d =>
        let btw := if d.length > total - kTagSize then total - kTagSize else d.length
        if rem < btw then
          .ok (out, .error (.invalidArgument,
            "|plaintext| is too small to hold the decrypted ciphertext."))
        else if intBound ≤ btw then .error .intRange
        else if f.update k then
          .ok (zeros out.length, .error (.internal, "Decrypting ciphertext failed. " ++ q))
        else do
          let (o, c') := c.decUpdate L (d.take btw)
          let out' ← writeAt out off o
          let rem' ← subSize rem o.length
          let total' ← subSize total o.length
          decLoopT L f q (k + 1) c' out' (off + o.length) rem' total' (d.drop btw) vs

/-- `Decrypt` of the crypters on the EVP interface (aes_gcm_crypter.cc:272-398;
chacha_poly_crypter_openssl.cc:278-404), as `evpDecrypt`. -/
def evpDecryptT (L : Lib) (f : EvpFault) (q : String) (alg : Alg) (key nonce : Bytes)
    (aad ciphertextAndTag : List Iovec) (out : Iovec) : Exec (Result × String) :=
  if ¬ out.WF then .error .assertFail
  else
    let ob := out.bytes
    let total := totalLen ciphertextAndTag
    if total < kTagSize then
      .ok (⟨.invalidArgument, 0, out⟩, "|ciphertext_and_tag| is too small to hold a tag.")
    else if nonce.length ≠ kNonceSize then .ok (⟨.invalidArgument, 0, out⟩, nonceLengthText alg)
    else if f.init then .ok (⟨.internal, 0, out⟩, decryptInitText alg ++ q)
    else do
      match ← setAadT f q 0 ⟨alg, key, nonce, [], []⟩ aad with
      | .error (e, m) => return (⟨e, 0, out⟩, m)
      | .ok c =>
        match ← decLoopT L f q 0 c ob 0 ob.length total [] ciphertextAndTag with
        | (ob', .error (e, m)) => return (⟨e, 0, out.setBytes ob'⟩, m)
        | (ob', .ok s) =>
          if s.total > kTagSize then
            return (⟨.internal, 0, out.setBytes (zeros ob'.length)⟩,
              "Not enough plaintext buffer to hold encrypted ciphertext. " ++ q)
          else
            let tag ← tagAppend [] s.cur
            let tag ← gatherTag tag s.rest
            if tag.length ≠ kTagSize then .error .uninitialized
            else if f.tag then
              return (⟨.internal, 0, out.setBytes (zeros ob'.length)⟩, "Setting tag failed. " ++ q)
            else if f.final || decide (s.ctx.tag L ≠ tag) then
              return (⟨.internal, 0, out.setBytes (zeros ob'.length)⟩, "Checking tag failed: " ++ q)
            else
              let w ← subSize ob.length s.rem
              return (⟨.ok, w, out.setBytes ob'⟩, "")

/-- `Encrypt` with BoringSSL (chacha_poly_crypter_boringssl.cc:52-137), as `boringEncrypt`. -/
def boringEncryptT (L : Lib) (f : EvpFault) (q : String) (alg : Alg) (key nonce : Bytes)
    (aad plaintext : List Iovec) (out : Iovec) : Exec (Result × String) :=
  match out with
  | .null _ => .error .assertFail
  | .buf ob =>
    if nonce.length ≠ kNonceSize then
      .ok (⟨.invalidArgument, 0, out⟩, "|nonce| has invalid length.")
    else if hasBadNull plaintext then
      .ok (⟨.invalidArgument, 0, out⟩, "non-zero plaintext length but plaintext is nullptr.")
    else
      let inLen := totalLen plaintext
      if ob.length < kTagSize + inLen then
        .ok (⟨.invalidArgument, 0, out⟩,
          "|ciphertext_and_tag| is too small to hold the resulting ciphertext and tag.")
      else
        let inVec := flat plaintext
        if hasBadNull aad then
          .ok (⟨.invalidArgument, 0, out⟩, "non-zero aad length but |aad| is nullptr.")
        else
          let aadVec := flat aad
          if f.oneShot then
            .ok (⟨.internal, 0, .buf (zeros ob.length)⟩, "seal operation failed. " ++ q)
          else do
            let ct := xorKs (L.ks alg key nonce) 0 inVec
            let sealed := ct ++ L.mac alg key nonce aadVec ct
            let ob' ← writeAt ob 0 sealed
            let rest ← subSize ob.length sealed.length
            let w ← subSize ob.length rest
            return (⟨.ok, w, .buf ob'⟩, "")

/-- `Decrypt` with BoringSSL (chacha_poly_crypter_boringssl.cc:139-234), as `boringDecrypt`. -/
def boringDecryptT (L : Lib) (f : EvpFault) (q : String) (alg : Alg) (key nonce : Bytes)
    (aad ciphertextAndTag : List Iovec) (out : Iovec) : Exec (Result × String) :=
  if ¬ out.WF then .error .assertFail
  else
    let ob := out.bytes
    if nonce.length ≠ kNonceSize then
      .ok (⟨.invalidArgument, 0, out⟩, "|nonce| has invalid length.")
    else if hasBadNull ciphertextAndTag then
      .ok (⟨.invalidArgument, 0, out⟩, "non-zero ciphertext length but ciphertext is nullptr.")
    else
      let inLen := totalLen ciphertextAndTag
      if inLen < kTagSize then
        .ok (⟨.invalidArgument, 0, out⟩, "|ciphertext_and_tag| is too small to hold a tag.")
      else if ob.length < inLen - kTagSize then
        .ok (⟨.invalidArgument, 0, out⟩,
          "|plaintext| is too small to hold the resulting plaintext.")
      else
        let inVec := flat ciphertextAndTag
        if hasBadNull aad then
          .ok (⟨.invalidArgument, 0, out⟩, "non-zero aad length but |aad| is nullptr.")
        else
          let aadVec := flat aad
          let ct := inVec.take (inVec.length - kTagSize)
          let tag := inVec.drop (inVec.length - kTagSize)
          if f.oneShot || decide (L.mac alg key nonce aadVec ct ≠ tag) then
            .ok (⟨.internal, 0, out.setBytes (zeros ob.length)⟩, "open operation failed. " ++ q)
          else do
            let pt := xorKs (L.ks alg key nonce) 0 ct
            let ob' ← writeAt ob 0 pt
            let rest ← subSize ob.length pt.length
            let w ← subSize ob.length rest
            return (⟨.ok, w, out.setBytes ob'⟩, "")

/-- `S2AAeadCrypter::Encrypt`, as `Crypter.encrypt`. [src/crypto/s2a_aead_crypter.h:82] -/
def Crypter.encryptT (L : Lib) (f : EvpFault) (q : String) (c : Crypter) (nonce : Bytes)
    (aad plaintext : List Iovec) (out : Iovec) : Exec (Result × String) :=
  if L.boring && decide (c.alg = .chachaPoly) then
    boringEncryptT L f q c.alg c.key nonce aad plaintext out
  else evpEncryptT L f q c.alg c.key nonce aad plaintext out

/-- `S2AAeadCrypter::Decrypt`, as `Crypter.decrypt`. [src/crypto/s2a_aead_crypter.h:101] -/
def Crypter.decryptT (L : Lib) (f : EvpFault) (q : String) (c : Crypter) (nonce : Bytes)
    (aad ciphertextAndTag : List Iovec) (out : Iovec) : Exec (Result × String) :=
  if L.boring && decide (c.alg = .chachaPoly) then
    boringDecryptT L f q c.alg c.key nonce aad ciphertextAndTag out
  else evpDecryptT L f q c.alg c.key nonce aad ciphertextAndTag out

/-- `CreateAesGcmAeadCrypter` (aes_gcm_crypter.cc:404-434), as `createAesGcm`. -/
def createAesGcmT (fail : Bool) (q : String) (key : Bytes) :
    Except (StatusCode × String) Crypter :=
  if key.length = kAes128KeySize then
    if fail then .error (.internal, "Initialization of |EVP_AEAD_CTX| failed: " ++ q)
    else .ok ⟨.aes128gcm, key⟩
  else if key.length = kAes256KeySize then
    if fail then .error (.internal, "Initialization of |EVP_AEAD_CTX| failed: " ++ q)
    else .ok ⟨.aes256gcm, key⟩
  else .error (.failedPrecondition, "AES-GCM key size is not supported.")

/-- `CreateChachaPolyAeadCrypter` (chacha_poly_crypter_openssl.cc:410-437,
chacha_poly_crypter_boringssl.cc:240-260), as `createChachaPoly`. -/
def createChachaPolyT (fail : Bool) (q : String) (key : Bytes) :
    Except (StatusCode × String) Crypter :=
  if key.length ≠ kChachaKeySize then .error (.invalidArgument, "Key size is unsupported.")
  else if fail then .error (.internal, "Initialization of |EVP_AEAD_CTX| failed: " ++ q)
  else .ok ⟨.chachaPoly, key⟩

end Aead

namespace Hkdf

/-- The loop of `HkdfDerivation` (hkdf.cc:39-59), as `loop`. -/
def loopT (L : Lib) (h : HashFn) (f : HkdfFault) (late : Bool) (prk info : Bytes) :
    (m i : Nat) → (buffer : Bytes) → (done : Nat) → (out : Bytes) →
    Exec ((StatusCode × Bytes) × String)
  | 0, _, _, _, out => .ok ((.ok, out), "")
  | m + 1, i, buffer, done, out =>
    if f.step i then
      .ok ((.internal, out),
        if i = 0 || late then "Updating and finalizing HMAC failed." else "Updating HMAC failed.")
    else
      let msg := (if i = 0 then [] else buffer) ++ info ++ [UInt8.ofNat (i + 1)]
      let buffer' := L.hmac h prk msg
      do
        let todo ← todoLen done h.digestSize out.length
        let out' ← writeAt out done (buffer'.take todo)
        loopT L h f late prk info m (i + 1) buffer' (done + todo) out'

/-- `HkdfDerivation` (hkdf.cc:30-61), as `derivation`. -/
def derivationT (L : Lib) (h : HashFn) (f : HkdfFault) (late : Bool) (n : Nat)
    (prk info out : Bytes) : Exec ((StatusCode × Bytes) × String) :=
  if f.init then .ok ((.internal, out), "Initializing HMAC failed.")
  else loopT L h f late prk info n 0 [] 0 out

/-- `HkdfDeriveSecret` (hkdf.cc:63-108), as `deriveSecret`. -/
def deriveSecretT (L : Lib) (f : HkdfFault) (late : Bool) (h : HashFn) (prk info out : Bytes) :
    Exec ((StatusCode × Bytes) × String) :=
  match h with
  | .other => .ok ((.invalidArgument, out), "|hash_function| is not supported.")
  | h =>
    if prk.length < h.digestSize then
      .ok ((.invalidArgument, out),
        "The size of |prk| must be at least the digest size of |hash_function|.")
    else
      let n := (out.length + h.digestSize - 1) / h.digestSize
      if n > 255 then .ok ((.internal, out), "Extracting too many bytes.")
      else if f.ctxNew then .ok ((.internal, out), "Could not generate new HMAC context.")
      else derivationT L h f late n prk info out

end Hkdf

/-- `DeriveSecret` (s2a_half_connection.cc:58-77), as `deriveLabel`; the message of
`CiphersuiteToHashFunction` is at s2a_crypter_util.cc:44. -/
def deriveLabelT (L : Lib) (f : HkdfFault) (late : Bool) (cs : Ciphersuite)
    (suffix secret output : Bytes) : Exec ((StatusCode × Bytes) × String) :=
  match ciphersuiteToHash cs with
  | .error e => .ok ((e, output), "Unrecognized ciphersuite.")
  | .ok h => Hkdf.deriveSecretT L f late h secret (labelLen output.length ++ suffix) output

namespace HalfConn

/-- The second `switch` of `Create` (s2a_half_connection.cc:146-155), as `createAead`. -/
def createAeadT (fail : Bool) (q : String) (cs : Ciphersuite) (key : Bytes) :
    Except (StatusCode × String) Aead.Crypter :=
  match cs with
  | .aes128GcmSha256 => Aead.createAesGcmT fail q key
  | .aes256GcmSha384 => Aead.createAesGcmT fail q key
  | .chacha20Poly1305Sha256 => Aead.createChachaPolyT fail q key
  | .other _ => .error (.invalidArgument, "Unexpected ciphersuite.")

/-- `S2AHalfConnection::Create` (s2a_half_connection.cc:102-169), as `create`. -/
def createT (L : Lib) (f : KeyFault) (x : LibText) (cs : Ciphersuite) (sequence : UInt64)
    (secret : Bytes) : Exec (Except (StatusCode × String) HalfConn) :=
  match sizes cs with
  | none => .ok (.error (.invalidArgument, "Unexpected ciphersuite."))
  | some (keySize, nonceSize, secretSize) =>
    if secret.length ≠ secretSize then
      .ok (.error (.invalidArgument, "|traffic_secret| size is incorrect."))
    else do
      let ((st, key), m) ← deriveLabelT L f.key x.late cs keySuffix secret (zeros keySize)
      if st ≠ .ok then return .error (st, m)
      let ((st, nonce), m) ← deriveLabelT L f.nonce x.late cs ivSuffix secret (zeros nonceSize)
      if st ≠ .ok then return .error (st, m)
      match createAeadT f.create x.queue cs key with
      | .error e => return .error e
      | .ok a =>
        return .ok { cs := cs, keySize := keySize, seq := sequence, overflowed := false,
                     alwaysFail := false, nonce := nonce, secret := secret, aead := a }

/-- `S2AHalfConnection::Encrypt` (s2a_half_connection.cc:171-184), as `encrypt`. -/
def encryptT (L : Lib) (f : EvpFault) (q : String) (hc : HalfConn) (aad plaintext : List Iovec)
    (out : Iovec) : Exec ((HalfConn × Option AeadCall × Aead.Result) × String) :=
  if hc.alwaysFail || hc.overflowed then
    .ok ((hc, none, ⟨.internal, 0, out⟩), "|S2AHalfConnection| is in unusable state.")
  else do
    let (n, hc') ← hc.nonceMask
    let call : AeadCall := ⟨hc.aead.key, n, flat aad, flat plaintext⟩
    let (r, m) ← hc.aead.encryptT L f q call.nonce aad plaintext out
    return ((hc', some call, r), m)

/-- `S2AHalfConnection::Decrypt` (s2a_half_connection.cc:186-199), as `decrypt`. -/
def decryptT (L : Lib) (f : EvpFault) (q : String) (hc : HalfConn)
    (aad ciphertextAndTag : List Iovec) (out : Iovec) :
    Exec ((HalfConn × Option AeadCall × Aead.Result) × String) :=
  if hc.alwaysFail || hc.overflowed then
    .ok ((hc, none, ⟨.internal, 0, out⟩), "|S2AHalfConnection| is in unusable state.")
  else do
    let (n, hc') ← hc.nonceMask
    let call : AeadCall := ⟨hc.aead.key, n, flat aad, flat ciphertextAndTag⟩
    let (r, m) ← hc.aead.decryptT L f q call.nonce aad ciphertextAndTag out
    return ((hc', some call, r), m)

end HalfConn
end S2A
