import Verif.Conform.Record
/-
src/record_protocol/s2a_crypter_test.cc: padding, alerts and failures.
-/
namespace S2A.Conform
open Data Record

/-- What one record leads to in a new crypter, and what the end of the connection does after it. -/
def receives (L : Lib) (cs : Ciphersuite) (record : Bytes) : Option (Code × Bytes × Code) := do
  let c ← newCrypter L cs 0 0
  let (c, code, b) ← opens L c record record.length
  let (_, r) ← (unprotect L .none c (.null 0) [] (.null 0)).toOption
  return (code, b, r.code)

/-- `UnprotectApplicationData` with padding (lines 646-648). -/
example : suites.all (fun cs => receives Lib.std cs (pick cs aes128GcmPaddedZerosRecord
      aes256GcmPaddedZerosRecord chachaPolyPaddedZerosRecord) ==
    some (.ok, messageEncryptedWithPaddedZeros, .failedPrecondition)) = true := by
  decide +kernel

/-- `UnprotectAlert` (lines 726-789): close notify. -/
example : suites.all (fun cs => receives Lib.std cs (pick cs aes128GcmDecryptCloseNotify
      aes256GcmDecryptCloseNotify chachaPolyDecryptCloseNotify) ==
    some (.alertCloseNotify, [], .alertCloseNotify)) = true := by
  decide +kernel

/-- `UnprotectAlert`: close notify with padding. -/
example : suites.all (fun cs => receives Lib.std cs (pick cs aes128GcmAlertWithPadding
      aes256GcmAlertWithPadding chachaPolyAlertWithPadding) ==
    some (.alertCloseNotify, [], .alertCloseNotify)) = true := by
  decide +kernel

/-- `UnprotectAlert`: another alert. -/
example : suites.all (fun cs => receives Lib.std cs (pick cs aes128GcmDecryptAlertOther
      aes256GcmDecryptAlertOther chachaPolyDecryptAlertOther) ==
    some (.alertOther, [], .failedPrecondition)) = true := by
  decide +kernel

/-- `UnprotectAlert`: an alert that is too short. -/
example : suites.all (fun cs => receives Lib.std cs (pick cs aes128GcmDecryptAlertSmall
      aes256GcmDecryptAlertSmall chachaPolyDecryptAlertSmall) ==
    some (.invalidRecord, [], .failedPrecondition)) = true := by
  decide +kernel

/-- `UnprotectFailures` (lines 583-631), but for the record that is too long. -/
def refuses (L : Lib) (cs : Ciphersuite) (header payload : Bytes) : Option (Code × Nat) := do
  let c ← newCrypter L cs 0 0
  let (_, r) ← (unprotect L .none c (.buf header) [.buf payload] (.null 0)).toOption
  return (r.code, r.written)

example : suites.all (fun cs =>
    refuses Lib.std cs [] [] == some (.failedPrecondition, 0) &&
    refuses Lib.std cs [0x16, 3, 3, 0, 0] (zeros 17) == some (.failedPrecondition, 0) &&
    refuses Lib.std cs [0x17, 3, 3, 1, 0x11] (zeros 17) == some (.failedPrecondition, 0) &&
    refuses Lib.std cs [0x17, 3, 3, 0, 0x11] (zeros 17) == some (.internalError, 0)) = true := by
  decide +kernel

end S2A.Conform
