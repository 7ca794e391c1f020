import Verif.Conform.Record
/-
src/record_protocol/s2a_crypter_test.cc: key updates and session tickets.
-/
namespace S2A.Conform
open Data Record

/-- `KeyUpdate` (lines 910-953): a key update the crypter seals itself, then a record under the next
key. -/
def updates (L : Lib) (cs : Ciphersuite) (next : Bytes) : Option (Code × Code × Bytes × Code × Bytes) := do
  let c ← newCrypter L cs 0 0
  let (c, c1, r) ← seals L c .handshake keyUpdateMessage
  let (c, c2, b2) ← opens L c r 64
  let (_, c3, b3) ← opens L c next 64
  return (c1, c2, b2, c3, b3)

example : suites.all (fun cs => updates Lib.std cs (pick cs aes128GcmAdvancedRecord
      aes256GcmAdvancedRecord chachaPolyAdvancedRecord) ==
    some (.ok, .ok, [], .ok, digits)) = true := by
  decide +kernel

/-- `KeyUpdateWithPadding` (lines 955-991). -/
def updatesPadded (L : Lib) (cs : Ciphersuite) (update next : Bytes) :
    Option (Code × Bytes × Code × Bytes) := do
  let c ← newCrypter L cs 0 0
  let (c, c2, b2) ← opens L c update 64
  let (_, c3, b3) ← opens L c next 64
  return (c2, b2, c3, b3)

example : suites.all (fun cs => updatesPadded Lib.std cs
      (pick cs aes128GcmKeyUpdateWithPadding aes256GcmKeyUpdateWithPadding
        chachaPolyKeyUpdateWithPadding)
      (pick cs aes128GcmAdvancedRecord aes256GcmAdvancedRecord chachaPolyAdvancedRecord) ==
    some (.ok, [], .ok, digits)) = true := by
  decide +kernel

/-- The keys and nonces of the tests (s2a_test_data.h:66-91).  No test uses `chacha_poly_key_bytes`,
and its byte 25 (0x53) is not the one that HKDF gives (0x54): the records above, which the test does
use, need 0x54. -/
example : suites.all (fun cs => (newCrypter Lib.std cs 0 0).map
      (fun c => (c.inC.aead.key, c.inC.nonce)) ==
    some (pick cs aes128GcmKeyBytes aes256GcmKeyBytes (chachaPolyKeyBytes.set 25 0x54),
      pick cs aes128GcmNonceBytes aes256GcmNonceBytes chachaPolyNonceBytes)) = true := by
  decide +kernel

example : chachaPolyKeyBytes[25]? = some 0x53 := by decide

example : suites.all (fun cs => (newCrypter Lib.std cs 0 0).bind
      (fun c => (updateOutboundKey Lib.std .none c).toOption.map
        (fun x => (x.2, x.1.outC.secret))) ==
    some (.ok, pick cs aes128GcmAdvancedTrafficSecret aes256GcmAdvancedTrafficSecret
      chachaPolyAdvancedTrafficSecret)) = true := by
  decide +kernel

/-- `TestDecryptSingleSessionTicketSuccess` (lines 278-312). -/
def ticket (L : Lib) (c : Conn) (b : Bytes) : Option (Conn × Code × Code × Bytes) := do
  let (c, c1, r) ← seals L c .handshake b
  let (c, c2, out) ← opens L c r 64
  return (c, c1, c2, out)

/-- `TestDecryptApplicationData` (lines 315-342). -/
def appData (L : Lib) (c : Conn) : Option (Conn × Code × Code × Bytes) := do
  let (c, c1, r) ← seals L c .applicationData [0, 0, 0, 0]
  let (c, c2, out) ← opens L c r 64
  return (c, c1, c2, out)

/-- `DecryptApplicantDataFollowingPartialTicket` (lines 807-829). -/
example : (((newCrypter Lib.std .aes128GcmSha256 0 0).bind fun c => do
      let (c, a, b, x) ← ticket Lib.std c [4, 0, 0, 1]
      let (c, d, e, y) ← appData Lib.std c
      return ((c.sent.length, a, b, x), d, e, y)) ==
    some ((0, .ok, .ok, []), .ok, .invalidRecord, [])) = true := by
  decide +kernel

/-- `SendTicketsToS2ANonTicketRecordFound` (lines 874-908). -/
example : (((newCrypter Lib.std .chacha20Poly1305Sha256 0 0).bind fun c => do
      let (c, a, b, x) ← ticket Lib.std c [4, 0, 0, 1, 0]
      let n := c.sent.length
      let (c, d, e, y) ← appData Lib.std c
      return ((n, a, b, x), (d, e, y), c.sent.map (·.tickets))) ==
    some ((0, .ok, .ok, []), (.ok, .ok, [0, 0, 0, 0]), [[[4, 0, 0, 1, 0]]])) = true := by
  decide +kernel

/-- Some tickets, and how many requests were made after each. -/
def tickets (L : Lib) : Nat → Conn → Option (Conn × List (Code × Code × Nat))
  | 0, c => some (c, [])
  | n + 1, c => do
    let (c, a, b, _) ← ticket L c [4, 0, 0, 1, 0]
    let (c', l) ← tickets L n c
    return (c', (a, b, c.sent.length) :: l)

/-- `SendTicketsToS2ALimitReached` (lines 831-872). -/
example : ((newCrypter Lib.std .chacha20Poly1305Sha256 0 0).bind fun c => do
      let (c, l) ← tickets Lib.std 5 c
      return (l, c.sent.map (·.tickets.length))) =
    some ([(.ok, .ok, 0), (.ok, .ok, 0), (.ok, .ok, 0), (.ok, .ok, 0), (.ok, .ok, 1)], [5]) := by
  decide +kernel

end S2A.Conform
