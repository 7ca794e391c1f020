import Verif.Model.Proxy
/-
A build with an OpenSSL that does not have ChaCha20-Poly1305 (older than 1.1.0, or with
OPENSSL_NO_CHACHA or OPENSSL_NO_POLY1305).  Only the creation of crypters of this algorithm is
compiled differently; the functions above it are repeated here, because they call it.
-/
namespace S2A.NoChacha

/-- `CreateChachaPolyAeadCrypter` where the `#else` branch is compiled
(src/crypto/chacha_poly_crypter_openssl.cc:410-424): what follows it is never reached. -/
def createChachaPoly (key : Bytes) : Except StatusCode Aead.Crypter :=
  if key.length ≠ Aead.kChachaKeySize then .error .invalidArgument
  else .error .failedPrecondition

/-- The second `switch` of `Create` and the one in `UpdateKey`
(src/record_protocol/s2a_half_connection.cc:146-155, 227-238). -/
def createAead (fail : Bool) (cs : Ciphersuite) (key : Bytes) : Except StatusCode Aead.Crypter :=
  match cs with
  | .aes128GcmSha256 => Aead.createAesGcm fail key
  | .aes256GcmSha384 => Aead.createAesGcm fail key
  | .chacha20Poly1305Sha256 => createChachaPoly key
  | .other _ => .error .invalidArgument

/-- `S2AHalfConnection::Create` (src/record_protocol/s2a_half_connection.cc:102-169). -/
def halfCreate (L : Lib) (f : KeyFault) (cs : Ciphersuite) (sequence : UInt64) (secret : Bytes) :
    Exec (Except StatusCode HalfConn) :=
  match HalfConn.sizes cs with
  | none => .ok (.error .invalidArgument)
  | some (keySize, nonceSize, secretSize) =>
    if secret.length ≠ secretSize then .ok (.error .invalidArgument)
    else do
      let (st, key) ← deriveKey L f.key cs secret (zeros keySize)
      if st ≠ .ok then return .error st
      let (st, nonce) ← deriveNonce L f.nonce cs secret (zeros nonceSize)
      if st ≠ .ok then return .error st
      match createAead f.create cs key with
      | .error e => return .error e
      | .ok a =>
        return .ok { cs := cs, keySize := keySize, seq := sequence, overflowed := false,
                     alwaysFail := false, nonce := nonce, secret := secret, aead := a }

/-- `S2AHalfConnection::UpdateKey` (src/record_protocol/s2a_half_connection.cc:201-254). -/
def updateKey (L : Lib) (f : KeyFault) (hc : HalfConn) : Exec (HalfConn × StatusCode) := do
  let (st, secret) ← advanceSecret L f.advance hc.cs hc.secret
  let hc := { hc with secret := secret }
  if st ≠ .ok then return ({ hc with alwaysFail := true }, st)
  let (st, key) ← deriveKey L f.key hc.cs hc.secret (zeros hc.keySize)
  if st ≠ .ok then return ({ hc with alwaysFail := true }, st)
  let (st, nonce) ← deriveNonce L f.nonce hc.cs hc.secret hc.nonce
  let hc := { hc with nonce := nonce }
  if st ≠ .ok then return ({ hc with alwaysFail := true }, st)
  match createAead f.create hc.cs key with
  | .error e => return ({ hc with alwaysFail := true }, e)
  | .ok a => return ({ hc with aead := a, seq := 0, overflowed := false }, .ok)

/-- `S2ACrypter::Create` (src/record_protocol/s2a_crypter.cc:192-256). -/
def connCreate (L : Lib) (fIn fOut : KeyFault) (a : Record.CreateArgs) :
    Exec (Except StatusCode Record.Conn) :=
  if a.url.isEmpty then .ok (.error .invalidArgument)
  else if !a.hasLogger then .ok (.error .invalidArgument)
  else if !a.hasSender then .ok (.error .invalidArgument)
  else if a.tlsVersion ≠ .tls1_3 then .ok (.error .invalidArgument)
  else do
    match ← halfCreate L fIn a.ciphersuite a.inSequence a.inSecret with
    | .error e => return .error e
    | .ok inC =>
      match ← halfCreate L fOut a.ciphersuite a.outSequence a.outSecret with
      | .error e => return .error e
      | .ok outC =>
        return .ok { connectionId := a.connectionId, url := a.url,
                     localIdentity := a.localIdentity, inC := inC, outC := outC,
                     closeNotify := false, handler := .init, phase := .notReceived,
                     expecting := false, hasFactory := a.hasFactory, sent := [] }

/-- `S2AFrameProtector::Create` (src/frame_protector/s2a_frame_protector.cc:192-231). -/
def frameCreate (L : Lib) (fIn fOut : KeyFault) (o : Frame.Options) :
    Exec (Except StatusCode Frame.State) :=
  if !o.hasAllocator || !o.hasDestroy || !o.crypter.hasLogger then
    .ok (.error .invalidArgument)
  else do
    match ← connCreate L fIn fOut { o.crypter with hasSender := true } with
    | .error e => return .error e
    | .ok c => return .ok ⟨c, Frame.kMaxPlaintext + c.recordOverhead, 0, [], []⟩

/-- `S2AProxy::CreateFrameProtector` (src/handshaker/s2a_proxy.cc:784-807). -/
def createFrameProtector (L : Lib) (fIn fOut : KeyFault) (s : Proxy.State) :
    Exec (Proxy.State × Except StatusCode Frame.State) :=
  if !s.finished then .ok (s, .error .failedPrecondition)
  else match s.result with
    | none => .error .nullDeref
    | some r => do
      let p ← frameCreate L fIn fOut (Proxy.frameOptions s r)
      return ({ s with hasFactory := false }, p)

end S2A.NoChacha
