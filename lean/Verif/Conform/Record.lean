import Verif.Conform.Keys
import Verif.Model.RecordHist
/-
src/record_protocol/s2a_crypter_test.cc.
-/
namespace S2A.Conform
open Data Record

/-- A new crypter with the traffic secrets of the tests (lines 267-273, 345-356). -/
def newCrypter (L : Lib) (cs : Ciphersuite) (inSeq outSeq : UInt64) : Option Conn :=
  let secret : Bytes := List.replicate (if cs = .aes256GcmSha384 then 48 else 32) 0x6b
  match create L .none .none
      { tlsVersion := .tls1_3, ciphersuite := cs, connectionId := 1234, url := [115],
        localIdentity := ⟨.hostname, [116]⟩, inSecret := secret, outSecret := secret,
        inSequence := inSeq, outSequence := outSeq, hasSender := true, hasFactory := false,
        hasLogger := true } with
  | .ok (.ok c) => some c
  | _ => none

/-- The suites the tests run with. -/
def suites : List Ciphersuite := [.aes128GcmSha256, .aes256GcmSha384, .chacha20Poly1305Sha256]

/-- The record for a suite. -/
def pick (cs : Ciphersuite) (a b c : Bytes) : Bytes :=
  match cs with
  | .aes128GcmSha256 => a
  | .aes256GcmSha384 => b
  | _ => c

/-- `Unprotect` of a record cut after its header: the code and the bytes written. -/
def opens (L : Lib) (c : Conn) (record : Bytes) (room : Nat) : Option (Conn × Code × Bytes) :=
  (unprotect L .none c (.buf (record.take 5)) [.buf (record.drop 5)] (.buf (zeros room))).toOption.map
    fun x => (x.1, x.2.code, x.2.out.bytes.take x.2.written)

/-- `Protect` into a buffer of the right size: the code and the record. -/
def seals (L : Lib) (c : Conn) (t : RecordType) (b : Bytes) : Option (Conn × Code × Bytes) :=
  (protect L .none c t [.buf b] (.buf (zeros (b.length + 22)))).toOption.map
    fun x => (x.1, x.2.code, x.2.out.bytes.take x.2.written)

/-- `Protect` (lines 476-523) and `UnprotectApplicationData` (lines 633-681) with record `i`. -/
def sealsAndOpens (L : Lib) (cs : Ciphersuite) (i : Nat) (pt record : Bytes) : Bool :=
  (newCrypter L cs 0 (UInt64.ofNat i)).bind (fun c => (seals L c .applicationData pt).map (·.2)) ==
      some (.ok, record) &&
    (newCrypter L cs (UInt64.ofNat i) 0).bind (fun c => (opens L c record (pt.length + 22)).map (·.2)) ==
      some (.ok, pt)

example : suites.all (fun cs => sealsAndOpens Lib.std cs 0 digits
    (pick cs aes128GcmRecordOneBytes aes256GcmRecordOneBytes chachaPolyRecordOneBytes)) = true := by
  decide +kernel

example : suites.all (fun cs => sealsAndOpens Lib.std cs 1 [55, 56, 57, 49, 50, 51, 52, 53, 54]
    (pick cs aes128GcmRecordTwoBytes aes256GcmRecordTwoBytes chachaPolyRecordTwoBytes)) = true := by
  decide +kernel

example : suites.all (fun cs => sealsAndOpens Lib.std cs 2 [55, 56, 57, 49]
    (pick cs aes128GcmRecordThreeBytes aes256GcmRecordThreeBytes chachaPolyRecordThreeBytes)) =
    true := by
  decide +kernel

/-- The same with BoringSSL. -/
example : sealsAndOpens (Lib.std true) .chacha20Poly1305Sha256 0 digits chachaPolyRecordOneBytes =
    true := by
  decide +kernel

/-- `ProtectEmptyPlaintext` (lines 539-581) and `UnprotectEmptyApplicationData` (lines 683-724). -/
example : suites.all (fun cs => sealsAndOpens Lib.std cs 0 []
    (pick cs aes128GcmEmptyRecordBytes aes256GcmEmptyRecordBytes chachaPolyEmptyRecordBytes)) =
    true := by
  decide +kernel

end S2A.Conform
