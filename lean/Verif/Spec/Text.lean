import Verif.Model.Text
/-
What the library may say: the complete list of its texts.  Nothing in a text comes from keys,
tokens, data of the application or identities, but the places listed here.
-/
namespace S2A.Spec

/-- The fixed sentences of the record protocol and the frame protector (the empty one is the
message of success). -/
def frameSentences : List String :=
  ["",
   "|plaintext| contains more bytes than are allowed in a single TLS 1.3 record.",
   "|record| is not large enough to hold the TLS 1.3 record built from |plaintext|.",
   "Unable to parse TLS record type.",
   "Unrecognized record type.",
   "|S2AHalfConnection| is in unusable state.",
   "|GetStoredTickets| should not be called after tickets have been retrieved.",
   "|GetStoredTickets| should not be called while waiting to read more ticket bytes.",
   "Received a session ticket from the peer. It is being ignored.",
   "Key update should be the last message in a plaintext.",
   "Unexpected handshake message type.",
   "Key update failed.",
   "TLS 1.3 record does not have record type byte.",
   "The TLS 1.3 alert record is too small.",
   "Received close notify alert.",
   "Received alert of type 21.",
   "Received a non handshake message while expecting a handshake message.",
   "Close notify alert has been received. Close the connection.",
   "Did not receive a complete TLS 1.3 record.",
   "TLS 1.3 record contains more bytes than allowed.",
   "TLS 1.3 record header is invalid.",
   "Protected an unexpected number of bytes.",
   "|vecs| is too small to hold TLS record header.",
   "TLS record header is incorrectly formatted.",
   "|vecs| is too small to hold TLS record.",
   "|protected_bytes| is too small to contain a TLS record.",
   "Failed to unprotect bytes from peer."]

/-- The fixed sentences of the AEAD operations. -/
def aeadSentences : List String :=
  ["|nonce| does not have the correct length.",
   "|nonce| has invalid length.",
   "Non-zero aad length but aad is nullptr.",
   "non-zero aad length but |aad| is nullptr.",
   "|plaintext| has an invalid component.",
   "non-zero plaintext length but plaintext is nullptr.",
   "|ciphertext_and_tag| has an invalid component.",
   "non-zero ciphertext length but ciphertext is nullptr.",
   "|ciphertext_and_tag| is too small to hold a tag.",
   "|ciphertext_and_tag| is too small to hold the resulting ciphertext and tag.",
   "|plaintext| is too small to hold the decrypted ciphertext.",
   "|plaintext| is too small to hold the resulting plaintext."]

/-- The fixed words that an AEAD operation puts before the error queue of the library. -/
def aeadPrefixes : List String :=
  ["Initializing AES-GCM nonce failed. ",
   "Initializing Chacha-Poly nonce failed. ",
   "Initializing ChachaPoly nonce failed. ",
   "Setting authenticated associated data failed. ",
   "|ciphertext_and_tag| is not large enough to hold the result of encrypting |plaintext|. ",
   "Encrypting |plaintext| failed. ",
   "Finalizing encryption failed. ",
   "Writing tag failed. ",
   "seal operation failed. ",
   "Decrypting ciphertext failed. ",
   "Not enough plaintext buffer to hold encrypted ciphertext. ",
   "Setting tag failed. ",
   "Checking tag failed: ",
   "open operation failed. "]

/-- The message of a failing AEAD operation: a fixed sentence, or fixed words and what the library
has in its error queue (`errs`). -/
inductive AeadText (errs : String → Prop) : String → Prop
  | sentence (t : String) : t ∈ aeadSentences → AeadText errs t
  | queue (p t : String) : p ∈ aeadPrefixes → errs t → AeadText errs (p ++ t)

/-- The fixed sentences of the key derivation and the construction of an AEAD. -/
def keySentences : List String :=
  ["Unexpected ciphersuite.",
   "|traffic_secret| size is incorrect.",
   "Unrecognized ciphersuite.",
   "|hash_function| is not supported.",
   "The size of |prk| must be at least the digest size of |hash_function|.",
   "Extracting too many bytes.",
   "Could not generate new HMAC context.",
   "Initializing HMAC failed.",
   "Updating HMAC failed.",
   "Updating and finalizing HMAC failed.",
   "AES-GCM key size is not supported.",
   "Key size is unsupported."]

/-- The message of a failing key derivation or construction of an AEAD: a fixed sentence, or fixed
words and what the library has in its error queue (`errs`). -/
inductive KeyText (errs : String → Prop) : String → Prop
  | sentence (t : String) : t ∈ keySentences → KeyText errs t
  | queue (t : String) : errs t → KeyText errs ("Initialization of |EVP_AEAD_CTX| failed: " ++ t)

/-- The fixed words that may stand before another text. -/
def framePrefixes : List String :=
  ["Encryption failure: ",
   "Decryption failed: ",
   "Retrieving tickets failed: ",
   "Failed to process handshake message result: ",
   "Failed to protect: ",
   "Failed to unprotect bytes from peer: ",
   "Failed to compute TLS record size: ",
   "Failed to isolate TLS payload: "]

/-- A text of the record protocol or the frame protector: a fixed sentence, a message of an AEAD
operation, which may end with the error queue of the library (`errs`), the sentence with the
content type of a record that has an unknown one, or such a text after fixed words. -/
inductive FrameText (errs : String → Prop) : String → Prop
  | sentence (t : String) : t ∈ frameSentences → FrameText errs t
  | aead (t : String) : AeadText errs t → FrameText errs t
  | contentType (n : Nat) : n < 256 →
      FrameText errs ("TLS record type byte " ++ toString n ++ " is invalid.")
  | after (p t : String) : p ∈ framePrefixes → FrameText errs t → FrameText errs (p ++ t)

/-- What a frame protector may log in a call that succeeds: two notices about session tickets. -/
def ticketNotices : List String :=
  ["Received a session ticket from the peer. It is being ignored.",
   "Retrieving tickets failed: |GetStoredTickets| should not be called after tickets have been " ++
     "retrieved.",
   "Retrieving tickets failed: |GetStoredTickets| should not be called while waiting to read " ++
     "more ticket bytes."]

/-- The fixed sentences of the proxy. -/
def proxySentences : List String :=
  ["",
   "No access token manager is registered with |S2AProxy|.",
   "Encountered unknown identity type 0 when trying to attach access token.",
   "Error when serializing |ClientSessionStartReq|.",
   "Error when serializing |ServerSessionStartReq|.",
   "Error when serializing |SessionNextReq|.",
   "Unsupported TLS version.",
   "Unsupported ciphersuite.",
   "Unsupported identity format.",
   "Client should have at most 1 local identity.",
   "Handshake has not begun, not expecting bytes.",
   "Handshake requires bytes from peer.",
   "|s2a_proto_SessionResult| is invalid.",
   "Error parsing TLS version from |s2a_proto_SessionResult|: Unsupported TLS version.",
   "Error parsing ciphersuite from |s2a_proto_SessionResult|: Unsupported ciphersuite.",
   "No peer identity set in |s2a_proto_SessionResult|.",
   "No local identity set in |s2a_proto_SessionResult|.",
   "Need bytes from S2A.",
   "Deserializing response from the S2A failed.",
   "Handshake is not finished.",
   "|handshaker_service_url| is empty.",
   "TLS 1.3 is the only supported TLS version."]

/-- A text of the proxy: a fixed sentence, a message of the token manager (`why`) after fixed
words, the details of an error that S2A reported, or a message of the key derivation, which may
end with the error queue of the library (`errs`). -/
inductive ProxyText (why errs details : String → Prop) : String → Prop
  | sentence (t : String) : t ∈ proxySentences → ProxyText why errs details t
  | key (t : String) : KeyText errs t → ProxyText why errs details t
  | token (t : String) : why t →
      ProxyText why errs details ("Unable to retrieve access token: " ++ t)
  | defaultToken (t : String) : why t →
      ProxyText why errs details ("Unable to retrieve default access token: " ++ t)
  | fromS2A (t : String) : details t → ProxyText why errs details ("Error from the S2A: " ++ t)

/-- What the proxy may log in a call that succeeds. -/
inductive ProxyNotice (why : String → Prop) : String → Prop
  | noManager : ProxyNotice why "No access token manager is registered with |S2AProxy|."
  | emptyIdentity :
      ProxyNotice why "Encountered unknown identity type 0 when trying to attach access token."
  | noPeerIdentity : ProxyNotice why "No peer identity set in |s2a_proto_SessionResult|."
  | token (t : String) : why t → ProxyNotice why ("Unable to retrieve access token: " ++ t)
  | defaultToken (t : String) : why t →
      ProxyNotice why ("Unable to retrieve default access token: " ++ t)

/-- Did the call on a frame protector fail? -/
def FrameFailed : Frame.Event → Prop
  | .result r => r.status ≠ .ok
  | .status st _ _ => st ≠ .ok

/-- Is it a call that is to decrypt fewer bytes than the shortest record has? -/
def TooShort : Frame.Op → Prop
  | .unprotect _ vs => totalLen vs < 22
  | .unprotectInto _ vs _ => totalLen vs < 22
  | .protect .. => False
  | .protectInto .. => False

/-- Did the call on a proxy fail? -/
def ProxyFailed : Proxy.Event → Prop
  | .forS2A _ st _ => st.code ≠ .ok
  | .forPeer _ st => st.code ≠ .ok
  | .isFinished _ => False
  | .createFrameProtector p => ∃ c, p = .error c
  | .getContext c => ∃ e, c = .error e

/-- Did the call meet a response of S2A without a status? -/
def NoStatus : Proxy.Event → Prop
  | .forPeer (some resp) _ => resp.status = none
  | _ => False

/-- Was it a call of `CreateFrameProtector`? -/
def IsCreate : Proxy.Event → Prop
  | .createFrameProtector _ => True
  | _ => False

/-- A text that S2A sent as the details of an error, in the response the call met. -/
def DetailsOf : Proxy.Event → String → Prop
  | .forPeer (some resp) _, t =>
    ∃ status, resp.status = some status ∧ status.code ≠ 0 ∧ t = textOf status.details
  | _, _ => False

end S2A.Spec
