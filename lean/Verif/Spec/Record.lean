import Verif.Spec.Nonces
import Verif.Model.Record
/-
TLS 1.3 record protection (RFC 8446 section 5.2, 5.4) and one direction of a connection
(sections 5.3, 7.2, 7.3).
-/
namespace S2A.Spec

/-- Content types (RFC 8446 section 5.1). -/
def alertType : UInt8 := 21
def handshakeType : UInt8 := 22
def appDataType : UInt8 := 23

/-- The content type for a record type of the API. -/
def contentType : Record.RecordType → Option UInt8
  | .applicationData => some appDataType
  | .alert => some alertType
  | .handshake => some handshakeType
  | .other _ => none

/-- `TLSInnerPlaintext`: content, content type, zero padding. -/
def innerPlaintext (content : Bytes) (type : UInt8) (padding : Nat) : Bytes :=
  content ++ type :: List.replicate padding 0

/-- Split an inner plaintext into content and type by dropping the trailing zeros; `none` if
there is no non-zero byte. -/
def unpad (inner : Bytes) : Option (Bytes × UInt8) :=
  match inner.reverse.dropWhile (· == 0) with
  | [] => none
  | t :: c => some (c.reverse, t)

/-- Header of a protected record: opaque type application_data, legacy version 0x0303,
length of the encrypted payload. -/
def recordHeader (payloadLen : Nat) : Bytes :=
  [23, 3, 3, UInt8.ofNat (payloadLen / 256), UInt8.ofNat payloadLen]

/-- A protected record; the header is the associated data. -/
def sealRecord (L : Lib) (alg : Alg) (key nonce inner : Bytes) : Bytes :=
  let hdr := recordHeader (inner.length + 16)
  hdr ++ aeadSeal L alg key nonce hdr inner

/-- One direction of a connection: its suite, current traffic secret and sequence number. -/
structure Dir where
  suite : Suite
  secret : Bytes
  seq : Nat
  deriving DecidableEq, Repr

namespace Dir

def key (L : Lib) (d : Dir) : Bytes := trafficKey L d.suite.hash d.secret d.suite.keyLen

/-- Nonce of the next record. -/
def nonce (L : Lib) (d : Dir) : Bytes := recordNonce (trafficIv L d.suite.hash d.secret) d.seq

/-- The next record carrying the given inner plaintext. -/
def protect (L : Lib) (d : Dir) (inner : Bytes) : Bytes :=
  sealRecord L d.suite.alg (d.key L) (d.nonce L) inner

/-- Open the next record, given as its header and the rest. -/
def «open» (L : Lib) (d : Dir) (header payload : Bytes) : Option Bytes :=
  aeadOpen L d.suite.alg (d.key L) (d.nonce L) header payload

/-- After a record. -/
def next (d : Dir) : Dir := { d with seq := d.seq + 1 }

/-- After a key update. -/
def update (L : Lib) (d : Dir) : Dir :=
  { d with secret := nextSecret L d.suite.hash d.secret, seq := 0 }

/-- Position after some AEAD calls and key updates. -/
def after (L : Lib) : Dir → List KeyUse → Dir
  | d, [] => d
  | d, .aead _ _ :: us => after L d.next us
  | d, .rekey :: us => after L (d.update L) us

end Dir
end S2A.Spec
