import Verif.Spec.AeadSays
import Verif.Spec.Says
/-
The messages of failing calls of `Protect` and `Unprotect` of a connection, each with what it says.
Unlike in `Spec/Says.lean` the library may fail in any way and the connection is in any state.
-/
namespace S2A.Spec
open Record (Conn RecordType Code)

/-- The half connection gives up: its sequence number has overflowed, or a key update failed. -/
def Unusable (hc : HalfConn) : Prop := hc.alwaysFail = true ∨ hc.overflowed = true

/-- What a code and a message of `Protect` say of the call: the state of the connection, the record
type, the plaintext, the size of the output buffer (`room`), the calls of the library that fail (`f`)
and the errors that it reports (`errs`). -/
inductive ProtectSays (L : Lib) (c : Conn) (f : EvpFault) (errs : String) (rt : RecordType)
    (pt : List Iovec) (room : Nat) : Code → String → Prop
  | tooLong : 2 ^ 14 < totalLen pt → ProtectSays L c f errs rt pt room .failedPrecondition
      "|plaintext| contains more bytes than are allowed in a single TLS 1.3 record."
  | tooSmall : room < totalLen pt + (5 + 1 + 16) →
      ProtectSays L c f errs rt pt room .failedPrecondition
        "|record| is not large enough to hold the TLS 1.3 record built from |plaintext|."
  | badType : rt ≠ .applicationData → rt ≠ .alert → rt ≠ .handshake →
      ProtectSays L c f errs rt pt room .failedPrecondition "Unrecognized record type."
  | unusable : Unusable c.outC → ProtectSays L c f errs rt pt room .internalError
      "|S2AHalfConnection| is in unusable state."
  | argument (nonce : Bytes) (t : UInt8) (m : String) : SealSays L c.outC.aead f errs nonce
      [.buf (recordHeader (totalLen pt + (1 + 16)))] (pt ++ [.buf [t]]) (room - 5) .invalidArgument m →
      ProtectSays L c f errs rt pt room .invalidArgument m
  | library (nonce : Bytes) (t : UInt8) (m : String) : SealSays L c.outC.aead f errs nonce
      [.buf (recordHeader (totalLen pt + (1 + 16)))] (pt ++ [.buf [t]]) (room - 5) .internal m →
      ProtectSays L c f errs rt pt room .internalError m

/-- What a code and a message of `Unprotect` say of the call.  `inner` is what the record decrypts to
(if it does), `rekey` the status of the key update that it caused (if it did). -/
inductive UnprotectSays (L : Lib) (c : Conn) (f : EvpFault) (errs : String) (header : Iovec)
    (payload : List Iovec) (room : Nat) (inner : Option Bytes) (rekey : Option StatusCode) :
    Code → String → Prop
  | closed : c.closeNotify = true →
      UnprotectSays L c f errs header payload room inner rekey .alertCloseNotify
        "Close notify alert has been received. Close the connection."
  | short : header.len + totalLen payload < 5 + 1 + 16 →
      UnprotectSays L c f errs header payload room inner rekey .failedPrecondition
        "Did not receive a complete TLS 1.3 record."
  | long : 5 + 1 + 16 + 2 ^ 14 < header.len + totalLen payload →
      UnprotectSays L c f errs header payload room inner rekey .alertRecordOverflow
        "TLS 1.3 record contains more bytes than allowed."
  | header : header ≠ .buf (recordHeader (totalLen payload)) →
      UnprotectSays L c f errs header payload room inner rekey .failedPrecondition
        "TLS 1.3 record header is invalid."
  | unusable : Unusable c.inC → UnprotectSays L c f errs header payload room inner rekey .internalError
      "Decryption failed: |S2AHalfConnection| is in unusable state."
  | refused (nonce : Bytes) (e : StatusCode) (m : String) :
      OpenSays L c.inC.aead f errs nonce [header] payload room e m →
      UnprotectSays L c f errs header payload room inner rekey .internalError
        ("Decryption failed: " ++ m)
  | noType (p : Bytes) : inner = some p → unpad p = none →
      UnprotectSays L c f errs header payload room inner rekey .invalidRecord
        "TLS 1.3 record does not have record type byte."
  | shortAlert (p content : Bytes) : inner = some p → unpad p = some (content, alertType) →
      content.length < 2 → UnprotectSays L c f errs header payload room inner rekey .invalidRecord
        "The TLS 1.3 alert record is too small."
  | closing (p content : Bytes) : inner = some p → unpad p = some (content, alertType) →
      content[1]? = some 0 →
      UnprotectSays L c f errs header payload room inner rekey .alertCloseNotify
        "Received close notify alert."
  | alert (p content : Bytes) (d : UInt8) : inner = some p → unpad p = some (content, alertType) →
      content[1]? = some d → d ≠ 0 →
      UnprotectSays L c f errs header payload room inner rekey .alertOther "Received alert of type 21."
  | update (p content : Bytes) (e : StatusCode) : inner = some p →
      unpad p = some (content, handshakeType) → rekey = some e → e ≠ .ok →
      UnprotectSays L c f errs header payload room inner rekey .internalError
        "Failed to process handshake message result: Key update failed."
  | updateNotLast (p content : Bytes) (h : Handler) (e : StatusCode) : inner = some p →
      unpad p = some (content, handshakeType) → c.handler.process content = .ok (h, .error e) →
      h.messageType = .ok 24 →
      UnprotectSays L c f errs header payload room inner rekey .internalError
        ("Failed to process handshake message result: " ++
          "Key update should be the last message in a plaintext.")
  | unexpected (p content : Bytes) (h : Handler) (e : StatusCode) : inner = some p →
      unpad p = some (content, handshakeType) → c.handler.process content = .ok (h, .error e) →
      h.messageType ≠ .ok 24 →
      UnprotectSays L c f errs header payload room inner rekey .internalError
        "Failed to process handshake message result: Unexpected handshake message type."
  | interrupted (p content : Bytes) : inner = some p → unpad p = some (content, appDataType) →
      c.expecting = true → UnprotectSays L c f errs header payload room inner rekey .invalidRecord
        "Received a non handshake message while expecting a handshake message."
  | badType (p content : Bytes) (t : UInt8) : inner = some p → unpad p = some (content, t) →
      t ≠ alertType → t ≠ handshakeType → t ≠ appDataType →
      UnprotectSays L c f errs header payload room inner rekey .invalidRecord
        ("TLS record type byte " ++ toString t.toNat ++ " is invalid.")

end S2A.Spec
