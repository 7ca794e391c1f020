import Verif.Spec.Status
import Verif.Model.TextContext
/-
What an error message says of the call that returned it.  Each constructor is one message,
with the fact that it states.
-/
namespace S2A.Spec
open Proto

/-- The messages of a failing derivation of one block of key material. -/
inductive HmacBlame (f : HkdfFault) : String → Prop
  | context : f.ctxNew = true → HmacBlame f "Could not generate new HMAC context."
  | init : f.init = true → HmacBlame f "Initializing HMAC failed."
  | step : f.step 0 = true → HmacBlame f "Updating and finalizing HMAC failed."

/-- The messages about the ciphersuite, the secret and the keys of one direction. -/
inductive KeyBlame (f : KeyFault) (queue : String) (cs : Ciphersuite) (secret : Bytes) :
    String → Prop
  | ciphersuite : suite cs = none → KeyBlame f queue cs secret "Unexpected ciphersuite."
  | secret (su : Suite) : suite cs = some su → secret.length ≠ su.hash.digestSize →
      KeyBlame f queue cs secret "|traffic_secret| size is incorrect."
  | key (m : String) : HmacBlame f.key m → KeyBlame f queue cs secret m
  | nonce (m : String) : HmacBlame f.nonce m → KeyBlame f queue cs secret m
  | aead : f.create = true →
      KeyBlame f queue cs secret ("Initialization of |EVP_AEAD_CTX| failed: " ++ queue)

/-- The messages of a failing creation of a connection. -/
inductive CreateBlame (fIn fOut : KeyFault) (qIn qOut : String) (a : Record.CreateArgs) :
    String → Prop
  | address : a.url = [] → CreateBlame fIn fOut qIn qOut a "|handshaker_service_url| is empty."
  | logger : a.hasLogger = false →
      CreateBlame fIn fOut qIn qOut a "|logger| must not be nullptr."
  | sender : a.hasSender = false →
      CreateBlame fIn fOut qIn qOut a "|ticket_sender_function| must not be nullptr."
  | version : a.tlsVersion ≠ .tls1_3 →
      CreateBlame fIn fOut qIn qOut a "TLS 1.3 is the only supported TLS version."
  | inKey (m : String) : KeyBlame fIn qIn a.ciphersuite a.inSecret m →
      CreateBlame fIn fOut qIn qOut a m
  | outKey (m : String) : KeyBlame fOut qOut a.ciphersuite a.outSecret m →
      CreateBlame fIn fOut qIn qOut a m

/-- The messages of a failing creation of a frame protector, which always has a ticket sender. -/
inductive ProtectorBlame (fIn fOut : KeyFault) (qIn qOut : String) (o : Frame.Options) :
    String → Prop
  | argument : o.hasAllocator = false ∨ o.hasDestroy = false ∨ o.crypter.hasLogger = false →
      ProtectorBlame fIn fOut qIn qOut o
        "Failed to create |S2AFrameProtector| because of unexpected nullptr argument."
  | address : o.crypter.url = [] →
      ProtectorBlame fIn fOut qIn qOut o "|handshaker_service_url| is empty."
  | version : o.crypter.tlsVersion ≠ .tls1_3 →
      ProtectorBlame fIn fOut qIn qOut o "TLS 1.3 is the only supported TLS version."
  | inKey (m : String) : KeyBlame fIn qIn o.crypter.ciphersuite o.crypter.inSecret m →
      ProtectorBlame fIn fOut qIn qOut o m
  | outKey (m : String) : KeyBlame fOut qOut o.crypter.ciphersuite o.crypter.outSecret m →
      ProtectorBlame fIn fOut qIn qOut o m

/-- The messages of a failing `GetBytesForS2A`, after the calls `evs`. -/
inductive ToS2ABlame (isClient : Bool) (opts : TlsOptions) (evs : List Proxy.Event)
    (serializeFails : Bool) (bytes : Bytes) : String → Prop
  | notBegun : requests evs = [] → isClient = true → bytes ≠ [] →
      ToS2ABlame isClient opts evs serializeFails bytes
        "Handshake has not begun, not expecting bytes."
  | needsBytes : requests evs ≠ [] → bytes = [] →
      ToS2ABlame isClient opts evs serializeFails bytes "Handshake requires bytes from peer."
  | version : requests evs = [] →
      wireTlsVersion opts.minTlsVersion = none ∨ wireTlsVersion opts.maxTlsVersion = none →
      ToS2ABlame isClient opts evs serializeFails bytes "Unsupported TLS version."
  | ciphersuite (c : Ciphersuite) : requests evs = [] → c ∈ opts.ciphersuites →
      wireCiphersuite c = none →
      ToS2ABlame isClient opts evs serializeFails bytes "Unsupported ciphersuite."
  | identity (i : Identity) : requests evs = [] →
      i ∈ opts.locals ∨ isClient = true ∧ i ∈ opts.targets → wireIdentity i = none →
      ToS2ABlame isClient opts evs serializeFails bytes "Unsupported identity format."
  | locals : requests evs = [] → isClient = true → 1 < opts.locals.length →
      ToS2ABlame isClient opts evs serializeFails bytes
        "Client should have at most 1 local identity."
  | clientStart : requests evs = [] → isClient = true → serializeFails = true →
      ToS2ABlame isClient opts evs serializeFails bytes
        "Error when serializing |ClientSessionStartReq|."
  | serverStart : requests evs = [] → isClient = false → serializeFails = true →
      ToS2ABlame isClient opts evs serializeFails bytes
        "Error when serializing |ServerSessionStartReq|."
  | next : requests evs ≠ [] → serializeFails = true →
      ToS2ABlame isClient opts evs serializeFails bytes
        "Error when serializing |SessionNextReq|."

/-- The messages of a failing `GetBytesForPeer`; `decoded` is what the bytes say, if they are a
response. -/
inductive ToPeerBlame (bytes : Bytes) (decoded : Option SessionResp) : String → Prop
  | needsBytes : bytes = [] → ToPeerBlame bytes decoded "Need bytes from S2A."
  | malformed : bytes ≠ [] → decoded = none →
      ToPeerBlame bytes decoded "Deserializing response from the S2A failed."
  | noStatus (resp : SessionResp) : decoded = some resp → resp.status = none →
      ToPeerBlame bytes decoded ""
  | reported (resp : SessionResp) (status : SessionStatus) : decoded = some resp →
      resp.status = some status → status.code ≠ 0 →
      ToPeerBlame bytes decoded ("Error from the S2A: " ++ textOf status.details)
  | noState (resp : SessionResp) (r : SessionResult) : decoded = some resp → Good resp →
      resp.result = some r → r.state = none →
      ToPeerBlame bytes decoded "|s2a_proto_SessionResult| is invalid."
  | version (resp : SessionResp) (r : SessionResult) (st : SessionState) :
      decoded = some resp → Good resp → resp.result = some r → r.state = some st →
      (∀ v, wireTlsVersion v ≠ some st.tlsVersion) →
      ToPeerBlame bytes decoded "Unsupported TLS version."
  | ciphersuite (resp : SessionResp) (r : SessionResult) (st : SessionState) :
      decoded = some resp → Good resp → resp.result = some r → r.state = some st →
      (∀ c, wireCiphersuite c ≠ some st.ciphersuite) →
      ToPeerBlame bytes decoded "Unsupported ciphersuite."
  | noLocalIdentity (resp : SessionResp) (r : SessionResult) :
      decoded = some resp → Good resp → resp.result = some r → r.localIdentity = none →
      ToPeerBlame bytes decoded "No local identity set in |s2a_proto_SessionResult|."

/-- The messages of a failing `CreateFrameProtector`, after the calls `evs`. -/
inductive HandoverBlame (opts : TlsOptions) (evs : List Proxy.Event) (fIn fOut : KeyFault)
    (qIn qOut : String) : String → Prop
  | notFinished : results evs = [] →
      HandoverBlame opts evs fIn fOut qIn qOut "Handshake is not finished."
  | address : opts.s2aAddress = [] →
      HandoverBlame opts evs fIn fOut qIn qOut "|handshaker_service_url| is empty."
  | version (r : SessionResult) (st : SessionState) : lastStated evs = some r →
      r.state = some st → wireTlsVersion .tls1_3 ≠ some st.tlsVersion →
      HandoverBlame opts evs fIn fOut qIn qOut "TLS 1.3 is the only supported TLS version."
  | inKey (m : String) (r : SessionResult) (st : SessionState) (cs : Ciphersuite) :
      lastStated evs = some r → r.state = some st → wireCiphersuite cs = some st.ciphersuite →
      KeyBlame fIn qIn cs st.inKey m → HandoverBlame opts evs fIn fOut qIn qOut m
  | outKey (m : String) (r : SessionResult) (st : SessionState) (cs : Ciphersuite) :
      lastStated evs = some r → r.state = some st → wireCiphersuite cs = some st.ciphersuite →
      KeyBlame fOut qOut cs st.outKey m → HandoverBlame opts evs fIn fOut qIn qOut m

/-- The messages of a context that cannot be serialised. -/
inductive SerializeBlame (fail : Bool) (c : Context) : String → Prop
  | version : wireTlsVersion c.tlsVersion = none →
      SerializeBlame fail c "Unsupported TLS version."
  | ciphersuite : wireCiphersuite c.ciphersuite = none →
      SerializeBlame fail c "Unsupported ciphersuite."
  | serialize : fail = true → SerializeBlame fail c "Error when serializing |S2AContext|."

/-- The messages of bytes that are not taken as a context. -/
inductive DeserializeBlame (utf8 : Bytes → Bool) (bs : Bytes) : String → Prop
  | malformed : PContext.parse utf8 bs = none →
      DeserializeBlame utf8 bs "Unable to deserialize S2A context."
  | version (m : PContext) : PContext.parse utf8 bs = some m →
      (∀ v, wireTlsVersion v ≠ some m.tlsVersion) →
      DeserializeBlame utf8 bs "Unsupported TLS version."
  | ciphersuite (m : PContext) : PContext.parse utf8 bs = some m →
      (∀ c, wireCiphersuite c ≠ some m.ciphersuite) →
      DeserializeBlame utf8 bs "Unsupported ciphersuite."

end S2A.Spec
