import Verif.Conform.Record
import Verif.Model.Text
/-
src/frame_protector/s2a_frame_protector_test.cc.
-/
namespace S2A.Conform
open Data Frame

/-- What the library says in these tests is not compared. -/
def noText : LibText := ⟨"", false⟩

/-- `Allocator` (line 54): memory whose contents are not given; here the bytes are 0xaa. -/
def testAllocator : Allocator := fun _ n => .buf (List.replicate n 0xaa)

/-- The options of the tests (lines 128-141, 246-260). -/
def frameOptions (cs : Ciphersuite) (url : Bytes) (allocator destroy logger : Bool) : Options :=
  { crypter :=
      { tlsVersion := .tls1_3, ciphersuite := cs, connectionId := 1234, url := url,
        localIdentity := ⟨.hostname, [116]⟩,
        inSecret := List.replicate (if cs = .aes256GcmSha384 then 48 else 32) 0x6b,
        outSecret := List.replicate (if cs = .aes256GcmSha384 then 48 else 32) 0x6b,
        inSequence := 0, outSequence := 0, hasSender := true, hasFactory := false,
        hasLogger := logger },
    hasAllocator := allocator, hasDestroy := destroy }

/-- The error of `Create`, if it returns one. -/
def createError (L : Lib) (o : Options) : Option (StatusCode × String) :=
  match createT L .none .none noText noText o with
  | .ok (.error e) => some e
  | _ => none

/-- `CreateFailsBecauseAllocatorIsNullptr`, `CreateFailsBecauseDestroyIsNullptr` and
`CreateFailsBecauseLoggerIsNullptr` (lines 123-210). -/
example : [(false, true, true), (true, false, true), (true, true, false)].all (fun x =>
    createError Lib.std (frameOptions .aes128GcmSha256 [115] x.1 x.2.1 x.2.2) ==
      some (.invalidArgument,
        "Failed to create |S2AFrameProtector| because of unexpected nullptr argument.")) = true := by
  decide +kernel

/-- `CreateFailsBecauseEmptyHandshakerServiceUrl` (lines 212-237). -/
example : createError Lib.std (frameOptions .aes128GcmSha256 [] true true true) =
    some (.invalidArgument, "|handshaker_service_url| is empty.") := by
  decide +kernel

/-- `SetUp` (lines 243-267). -/
def newFrame (L : Lib) (cs : Ciphersuite) : Option State :=
  match createT L .none .none noText noText (frameOptions cs [115] true true true) with
  | .ok (.ok s) => some s
  | _ => none

/-- `GetTestTlsRecord` (lines 107-121). -/
def smallRecord (cs : Ciphersuite) : Bytes :=
  pick cs aes128GcmDecryptRecord1 aes256GcmDecryptRecord1 chachaPolyDecryptRecord1

/-- The record of an empty plaintext (lines 367-382). -/
def emptyRecord (cs : Ciphersuite) : Bytes :=
  pick cs aes128GcmEmptyRecordBytes aes256GcmEmptyRecordBytes chachaPolyEmptyRecordBytes

/-- `NumberBytesToProtect` and `NumberBytesToUnprotect` (lines 278-322). -/
example : suites.all (fun cs => (newFrame Lib.std cs).map (fun s =>
    ([0, 5, 16384, 16384 + 5, 2 * 16384].map (numberBytesToProtect s),
      [0, 21, 16384 + 22].map (numberBytesToUnprotect s))) ==
    some ([22, 5 + 22, 16384 + 22, 5 + 16384 + 2 * 22, 2 * (16384 + 22)],
      [0, 0, 16384 + 22 - 5])) = true := by
  decide +kernel

/-- The allocating `Protect` on a new protector: the status, the bytes returned and the message. -/
def frameSeals (L : Lib) (cs : Ciphersuite) (vs : List Iovec) :
    Option (StatusCode × List Bytes × String) := do
  let s ← newFrame L cs
  let x ← (protectT L testAllocator (fun _ => .none) (fun _ => "") s vs).toOption
  return (x.1.2.status, x.1.2.bytes.map (·.2), x.2.message)

/-- The other `Protect` on a new protector, with a buffer of the size that `NumberBytesToProtect`
gives. -/
def frameSealsInto (L : Lib) (cs : Ciphersuite) (vs : List Iovec) :
    Option (StatusCode × Bytes × String) := do
  let s ← newFrame L cs
  let x ← (protectIntoT L (fun _ => .none) (fun _ => "") s .caller vs
    (testAllocator 0 (numberBytesToProtect s (totalLen vs)))).toOption
  return (x.1.2.1, x.1.2.2.bytes, x.2.message)

/-- The allocating `Unprotect` on a new protector. -/
def frameOpens (L : Lib) (cs : Ciphersuite) (vs : List Iovec) :
    Option (StatusCode × List Bytes × String) := do
  let s ← newFrame L cs
  let x ← (unprotectT L testAllocator (fun _ => .none) (fun _ => "") s vs).toOption
  return (x.1.2.status, x.1.2.bytes.map (·.2), x.2.message)

/-- The other `Unprotect` on a new protector: the status, the bytes up to the new `iov_len` and the
message. -/
def frameOpensInto (L : Lib) (cs : Ciphersuite) (vs : List Iovec) (out : Iovec) :
    Option (StatusCode × Bytes × String) := do
  let s ← newFrame L cs
  let x ← (unprotectIntoT L .none "" s vs out).toOption
  return (x.1.2.1, x.1.2.2.2.bytes.take x.1.2.2.1, x.2.message)

/-- `ProtectSmallBuffer` and `ProtectSmallBufferWithCustomAllocation` (lines 324-358). -/
example : suites.all (fun cs =>
    frameSeals Lib.std cs [.buf digits] == some (.ok, [smallRecord cs], "") &&
    frameSealsInto Lib.std cs [.buf digits] == some (.ok, smallRecord cs, "")) = true := by
  decide +kernel

/-- `ProtectEmptyBuffer` and `ProtectEmptyBufferWithCustomAllocation` (lines 360-425). -/
example : suites.all (fun cs =>
    frameSeals Lib.std cs [.null 0] == some (.ok, [emptyRecord cs], "") &&
    frameSealsInto Lib.std cs [.null 0] == some (.ok, emptyRecord cs, "")) = true := by
  decide +kernel

/-- `ParseTlsRecords` (lines 77-100), on bytes that are complete records: how many there are. -/
def countRecords : (fuel : Nat) → Bytes → Option Nat
  | 0, _ => none
  | fuel + 1, bytes =>
    match bytes with
    | [] => some 0
    | 0x17 :: 3 :: 3 :: a :: b :: rest =>
      let n := a.toNat * 256 + b.toNat
      if rest.length < n then none else (countRecords fuel (rest.drop n)).map (· + 1)
    | _ => none

/-- The small cases of `ProtectLargeContiguousBuffers` and `ProtectLargeFragmentedBuffers` (lines
427-607): one record of the expected length. -/
example : suites.all (fun cs =>
    [([0], 22), ([5], 27), ([0, 0, 0, 0, 0], 22), ([1, 1, 1, 1, 1], 27), ([1, 1, 0, 1, 1], 26)].all
      (fun (x : List Nat × Nat) =>
        let vs := x.1.map (testAllocator 0)
        (frameSeals Lib.std cs vs).map (fun r => (r.1, r.2.1.map fun b =>
            (b.length, countRecords 9 b))) == some (.ok, [(x.2, some 1)]) &&
        (frameSealsInto Lib.std cs vs).map (fun r => (r.1, r.2.1.length, countRecords 9 r.2.1)) ==
          some (.ok, x.2, some 1))) = true := by
  decide +kernel

/-- The failing tests of `Unprotect` whose message is compared (lines 609-683): too few bytes, a bad
type, a bad version.  `Iovec plaintext` without a value is a null pointer here. -/
example : suites.all (fun cs =>
    frameOpens Lib.std cs [.buf (zeros 21)] == some (.failedPrecondition, [],
      "|protected_bytes| is too small to contain a TLS record.") &&
    frameOpens Lib.std cs [.buf ((smallRecord cs).set 0 0)] == some (.failedPrecondition, [],
      "TLS record header is incorrectly formatted.") &&
    frameOpens Lib.std cs [.buf ((smallRecord cs).set 1 0)] == some (.failedPrecondition, [],
      "TLS record header is incorrectly formatted.") &&
    frameOpensInto Lib.std cs [.buf ((smallRecord cs).set 1 0)] (.null 0) ==
      some (.failedPrecondition, [], "TLS record header is incorrectly formatted.") &&
    frameOpensInto Lib.std cs [.buf (zeros 21)] (.null 0) == some (.failedPrecondition, [],
      "|protected_bytes| is too small to contain a TLS record.")) = true := by
  decide +kernel

/-- The record with its last byte changed (lines 689-690). -/
def spoilt (cs : Ciphersuite) : Bytes :=
  (smallRecord cs).take 27 ++ ((smallRecord cs).drop 27).map (· + 1)

/-- `UnprotectDecryptionFailure` and `UnprotectWithCustomPreallocationDecryptionFailure` (lines
685-714). -/
example : suites.all (fun cs =>
    (frameOpens Lib.std cs [.buf (spoilt cs)]).map (fun r => (r.1, r.2.1)) ==
      some (.internal, []) &&
    (frameOpensInto Lib.std cs [.buf (spoilt cs)] (.buf (zeros 23))).map (fun r => (r.1, r.2.1)) ==
      some (.internal, [])) = true := by
  decide +kernel

/-- `UnprotectSmallBuffer`, `UnprotectSmallBufferWithCustomPreallocation`, `UnprotectEmptyBuffer` and
`UnprotectEmptyBufferWithCustomPreallocation` (lines 716-810). -/
example : suites.all (fun cs =>
    frameOpens Lib.std cs [.buf (smallRecord cs)] == some (.ok, [digits], "") &&
    frameOpensInto Lib.std cs [.buf (smallRecord cs)] (.buf (zeros 23)) ==
      some (.ok, digits, "") &&
    frameOpens Lib.std cs [.buf (emptyRecord cs)] == some (.ok, [[]], "") &&
    frameOpensInto Lib.std cs [.buf (emptyRecord cs)] (.buf (zeros 17)) ==
      some (.ok, [], "")) = true := by
  decide +kernel

/-- Pieces of some bytes, by their lengths; the last piece is the rest. -/
def cutBytes : List Nat → Bytes → List Iovec
  | [], b => [.buf b]
  | n :: ns, b => .buf (b.take n) :: cutBytes ns (b.drop n)

/-- `UnprotectFragmentedRecord…` (lines 812-852). -/
example : suites.all (fun cs =>
    [[5, 17], [6, 14, 2], [1, 1, 1, 1, 1, 1, 1, 1, 1, 1]].all (fun ns =>
      frameOpens Lib.std cs (cutBytes ns (smallRecord cs)) == some (.ok, [digits], ""))) = true := by
  decide +kernel

/-- `Roundtrip` (lines 857-902) with its two small messages, one after the other: each comes back,
as one record. -/
def roundtrip (L : Lib) : State → List Bytes → Option (List (StatusCode × List Bytes))
  | _, [] => some []
  | s, m :: ms => do
    let (s, r) ← (protect L testAllocator (fun _ => .none) s [.buf m]).toOption
    let (s, r) ← (unprotect L testAllocator (fun _ => .none) s (r.bytes.map (.buf ·.2))).toOption
    return (r.status, r.bytes.map (·.2)) :: (← roundtrip L s ms)

example : suites.all (fun cs => (newFrame Lib.std cs).bind (roundtrip Lib.std · [[], [0]]) ==
    some [(.ok, [[]]), (.ok, [[0]])]) = true := by
  decide +kernel

end S2A.Conform
