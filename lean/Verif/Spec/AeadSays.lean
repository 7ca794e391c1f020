import Verif.Spec.CryptoStatus
/-
The messages of failing AEAD operations and key derivations, each with what it says.
-/
namespace S2A.Spec
open Aead (Crypter)

/-- AES-GCM and ChaCha20-Poly1305 have different words for some things. -/
def words (c : Crypter) (aes chacha : String) : String :=
  if c.alg = .chachaPoly then chacha else aes

/-- The operation is one call of the library (ChaCha20-Poly1305 with BoringSSL). -/
def OneCall (L : Lib) (c : Crypter) : Prop := L.boring = true ∧ c.alg = .chachaPoly

/-- What a status and a message of `Encrypt` say of the call: the nonce, the associated data, the
plaintext, the size of the output buffer (`room`), the calls of the library that fail (`f`) and the
errors that the library reports (`errs`). -/
inductive SealSays (L : Lib) (c : Crypter) (f : EvpFault) (errs : String) (nonce : Bytes)
    (aad pt : List Iovec) (room : Nat) : StatusCode → String → Prop
  | nonce : nonce.length ≠ 12 → SealSays L c f errs nonce aad pt room .invalidArgument
      (words c "|nonce| does not have the correct length." "|nonce| has invalid length.")
  | aadNull : ¬ AllWF aad → SealSays L c f errs nonce aad pt room .invalidArgument
      (words c "Non-zero aad length but aad is nullptr." "non-zero aad length but |aad| is nullptr.")
  | dataNull : ¬ AllWF pt → SealSays L c f errs nonce aad pt room .invalidArgument
      (words c "|plaintext| has an invalid component."
        "non-zero plaintext length but plaintext is nullptr.")
  | tooSmall : ¬ OneCall L c → room < (flat pt).length →
      SealSays L c f errs nonce aad pt room .invalidArgument
        ("|ciphertext_and_tag| is not large enough to hold the result of encrypting |plaintext|. " ++
          errs)
  | noTag : AllWF pt → room < (flat pt).length + 16 →
      SealSays L c f errs nonce aad pt room .invalidArgument
        (words c "|ciphertext_and_tag| is too small to hold a tag."
          "|ciphertext_and_tag| is too small to hold the resulting ciphertext and tag.")
  | initFails : ¬ OneCall L c → f.init = true → SealSays L c f errs nonce aad pt room .internal
      (words c "Initializing AES-GCM nonce failed. " "Initializing Chacha-Poly nonce failed. " ++ errs)
  | aadFails : ¬ OneCall L c → AadCallFails f aad → SealSays L c f errs nonce aad pt room .internal
      ("Setting authenticated associated data failed. " ++ errs)
  | dataFails : ¬ OneCall L c → SealCallFails f pt → SealSays L c f errs nonce aad pt room .internal
      ("Encrypting |plaintext| failed. " ++ errs)
  | finalFails : ¬ OneCall L c → f.final = true → SealSays L c f errs nonce aad pt room .internal
      ("Finalizing encryption failed. " ++ errs)
  | tagFails : ¬ OneCall L c → f.tag = true → SealSays L c f errs nonce aad pt room .internal
      ("Writing tag failed. " ++ errs)
  | callFails : OneCall L c → f.oneShot = true → SealSays L c f errs nonce aad pt room .internal
      ("seal operation failed. " ++ errs)

/-- What a status and a message of `Decrypt` say of the call. -/
inductive OpenSays (L : Lib) (c : Crypter) (f : EvpFault) (errs : String) (nonce : Bytes)
    (aad ct : List Iovec) (room : Nat) : StatusCode → String → Prop
  | nonce : nonce.length ≠ 12 → OpenSays L c f errs nonce aad ct room .invalidArgument
      (words c "|nonce| does not have the correct length." "|nonce| has invalid length.")
  | aadNull : ¬ AllWF aad → OpenSays L c f errs nonce aad ct room .invalidArgument
      (words c "Non-zero aad length but aad is nullptr." "non-zero aad length but |aad| is nullptr.")
  | dataNull : ¬ OneCall L c → ¬ AllWF ct → OpenSays L c f errs nonce aad ct room .invalidArgument
      "|ciphertext_and_tag| has an invalid component."
  | dataNull' : OneCall L c → ¬ AllWF ct → OpenSays L c f errs nonce aad ct room .invalidArgument
      "non-zero ciphertext length but ciphertext is nullptr."
  | noTag : totalLen ct < 16 → OpenSays L c f errs nonce aad ct room .invalidArgument
      "|ciphertext_and_tag| is too small to hold a tag."
  | tooSmall : ¬ OneCall L c → room + 16 < totalLen ct →
      OpenSays L c f errs nonce aad ct room .invalidArgument
        "|plaintext| is too small to hold the decrypted ciphertext."
  | tooSmall' : OneCall L c → room + 16 < totalLen ct →
      OpenSays L c f errs nonce aad ct room .invalidArgument
        "|plaintext| is too small to hold the resulting plaintext."
  | initFails : ¬ OneCall L c → f.init = true → OpenSays L c f errs nonce aad ct room .internal
      (words c "Initializing AES-GCM nonce failed. " "Initializing ChachaPoly nonce failed. " ++ errs)
  | aadFails : ¬ OneCall L c → AadCallFails f aad → OpenSays L c f errs nonce aad ct room .internal
      ("Setting authenticated associated data failed. " ++ errs)
  | dataFails : ¬ OneCall L c → OpenCallFails f ct → OpenSays L c f errs nonce aad ct room .internal
      ("Decrypting ciphertext failed. " ++ errs)
  | tagFails : ¬ OneCall L c → f.tag = true → OpenSays L c f errs nonce aad ct room .internal
      ("Setting tag failed. " ++ errs)
  | forged : ¬ OneCall L c →
      f.final = true ∨ aeadOpen L c.alg c.key nonce (flat aad) (flat ct) = none →
      OpenSays L c f errs nonce aad ct room .internal ("Checking tag failed: " ++ errs)
  | forged' : OneCall L c →
      f.oneShot = true ∨ aeadOpen L c.alg c.key nonce (flat aad) (flat ct) = none →
      OpenSays L c f errs nonce aad ct room .internal ("open operation failed. " ++ errs)

/-- What a status and a message of `HkdfDeriveSecret` say of the call: the hash function, the key,
the size of the output (`room`), the calls of the library that fail (`f`) and which of them it is in
a block after the first (`late`: absorbing the info, the counter or finishing, not starting again). -/
inductive HkdfSays (f : HkdfFault) (late : Bool) (h : HashFn) (prk : Bytes) (room : Nat) :
    StatusCode → String → Prop
  | hash : h ≠ .sha256 → h ≠ .sha384 → HkdfSays f late h prk room .invalidArgument
      "|hash_function| is not supported."
  | key : prk.length < h.digestSize → HkdfSays f late h prk room .invalidArgument
      "The size of |prk| must be at least the digest size of |hash_function|."
  | tooLong : 255 * h.digestSize < room → HkdfSays f late h prk room .internal
      "Extracting too many bytes."
  | noContext : f.ctxNew = true → HkdfSays f late h prk room .internal
      "Could not generate new HMAC context."
  | initFails : f.init = true → HkdfSays f late h prk room .internal "Initializing HMAC failed."
  | blockFails (i : Nat) : i * h.digestSize < room → f.step i = true → i = 0 ∨ late = true →
      HkdfSays f late h prk room .internal "Updating and finalizing HMAC failed."
  | againFails (i : Nat) : i * h.digestSize < room → f.step i = true → i ≠ 0 → late = false →
      HkdfSays f late h prk room .internal "Updating HMAC failed."

end S2A.Spec
