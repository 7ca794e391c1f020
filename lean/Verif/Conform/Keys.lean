import Verif.Conform.Data
import Verif.Model.HalfConn
/-
src/crypto/hkdf_test.cc and src/record_protocol/s2a_half_connection_test.cc.
-/
namespace S2A.Conform
open Data

/-! ### hkdf_test.cc -/

/-- `HkdfVerifyOutput` (lines 36-44). -/
def derives (prk info out : Bytes) : Bool :=
  (Hkdf.deriveSecret Lib.std .none .sha256 prk info (zeros out.length)).toOption == some (.ok, out)

/-- `InvalidHashFunction`, `PrkTooSmallToUseSha256`, `PrkTooSmallToUseSha384` (lines 46-76). -/
example : (Hkdf.deriveSecret Lib.std .none .other [] [] []).toOption = some (.invalidArgument, []) ∧
    (Hkdf.deriveSecret Lib.std .none .sha256 (zeros 31) [] []).toOption =
      some (.invalidArgument, []) ∧
    (Hkdf.deriveSecret Lib.std .none .sha384 (zeros 47) [] []).toOption =
      some (.invalidArgument, []) := by decide +kernel

/-- `TooManyBlocks` (lines 78-84). -/
example : (Hkdf.deriveSecret Lib.std .none .sha256 (zeros 32) [] (zeros (256 * 32))).toOption.map
    (·.1) = some .internal := by
  decide +kernel

/-- `DeriveSecret`: RFC 5869 test vector 1 (lines 87-143). -/
example : derives
    (hx 32 0x077709362c2e32df0ddc3f0dc47bba6390b6c73bb50f9c3122ec844ad7c2b3e5)
    (hx 10 0xf0f1f2f3f4f5f6f7f8f9)
    (hx 42 0x3cb25f25faacd57a90434f64d0362f2a2d2d0a90cf1a5a4c5db02d56ecc4c5bf34007208d5b887185865) = true := by
  decide +kernel

/-- `DeriveSecret`: RFC 5869 test vector 2 (lines 87-143). -/
example : derives
    (hx 32 0x06a6b88c5853361a06104c9ceb35b45cef760014904671014a193f40c15fc244)
    (hx 80 0xb0b1b2b3b4b5b6b7b8b9babbbcbdbebfc0c1c2c3c4c5c6c7c8c9cacbcccdcecfd0d1d2d3d4d5d6d7d8d9dadbdcdddedfe0e1e2e3e4e5e6e7e8e9eaebecedeeeff0f1f2f3f4f5f6f7f8f9fafbfcfdfeff)
    (hx 82 0xb11e398dc80327a1c8e7f78c596a49344f012eda2d4efad8a050cc4c19afa97c59045a99cac7827271cb41c65e590e09da3275600c2f09b8367793a9aca3db71cc30c58179ec3e87c14c01d5c1f3434f1d87) = true := by
  decide +kernel

/-- `DeriveSecret`: RFC 5869 test vector 3 (lines 87-143). -/
example : derives
    (hx 32 0x19ef24a32c717b167f33a91d6f648bdf96596776afdb6377ac434c1c293ccb04)
    []
    (hx 42 0x8da4e775a563c18f715f802a063c5a31b8a11f5c5ee1879ec3454e5f3c738d2d9d201395faa4b61a96c8) = true := by
  decide +kernel

/-! ### s2a_half_connection_test.cc -/

/-- A new half connection. -/
def half (L : Lib) (cs : Ciphersuite) (seq : UInt64) (secret : Bytes) : Option HalfConn :=
  match HalfConn.create L .none cs seq secret with
  | .ok (.ok h) => some h
  | _ => none

/-- `Create` (lines 38-66). -/
example : (HalfConn.create Lib.std .none .aes128GcmSha256 0 (zeros 48)).toOption.map
      (fun | .error e => e | .ok _ => .ok) = some .invalidArgument ∧
    (half Lib.std .chacha20Poly1305Sha256 0 (zeros 32)).isSome := by decide +kernel

/-- The statuses of two encryptions of nothing. -/
def twice (h : HalfConn) : Option (StatusCode × StatusCode) := do
  let (h, _, r) ← (h.encrypt Lib.std .none [] [] (.buf (zeros 16))).toOption
  let (_, _, r') ← (h.encrypt Lib.std .none [] [] (.buf (zeros 16))).toOption
  return (r.status, r'.status)

/-- `SequenceOverflow` (lines 68-91). -/
example : (half Lib.std .aes256GcmSha384 (-1) (zeros 48)).bind twice = some (.ok, .internal) := by
  decide +kernel

/-- "123456" -/
def digits : Bytes := [49, 50, 51, 52, 53, 54]

/-- What a half connection encrypts "123456" to. -/
def encrypted (L : Lib) (h : HalfConn) : Option (StatusCode × Nat × Bytes) :=
  (h.encrypt L .none [] [.buf digits] (.buf (zeros 22))).toOption.map fun x =>
    (x.2.2.status, x.2.2.written, x.2.2.out.bytes)

/-- `Encrypt` (lines 93-133). -/
def encrypts (L : Lib) (cs : Ciphersuite) (secret ct : Bytes) : Bool :=
  (half L cs 0 secret).bind (encrypted L) == some (.ok, 22, ct)

/-- `UpdateKeyAndEncrypt` (lines 135-179). -/
def updatesAndEncrypts (L : Lib) (cs : Ciphersuite) (secret ct : Bytes) : Bool :=
  (half L cs 0 secret).bind (fun h =>
    match h.updateKey L .none with
    | .ok (h, .ok) => encrypted L h
    | _ => none) == some (.ok, 22, ct)

example : encrypts Lib.std .aes128GcmSha256 (List.replicate 32 0x6b)
    (hx 22 0xf2e4e411ac674e01385e7ae9db54c97a9ae3d1842e51) = true := by decide +kernel

example : encrypts Lib.std .aes256GcmSha384 (List.replicate 48 0x6b)
    (hx 22 0x24efee5af1a665e6bb188e79544a7e974c707d690c5f) = true := by decide +kernel

example : encrypts Lib.std .chacha20Poly1305Sha256 (List.replicate 32 0x6b)
    (hx 22 0xc947ffa470308b19d9a086b05ccb75d8c94abb704aae) = true := by decide +kernel

example : encrypts (Lib.std true) .chacha20Poly1305Sha256 (List.replicate 32 0x6b)
    (hx 22 0xc947ffa470308b19d9a086b05ccb75d8c94abb704aae) = true := by decide +kernel

example : updatesAndEncrypts Lib.std .aes128GcmSha256 (List.replicate 32 0x6b)
    (hx 22 0xdd99ebef48294872e5fb83a6b965d49c67dba41dcbdc) = true := by decide +kernel

example : updatesAndEncrypts Lib.std .aes256GcmSha384 (List.replicate 48 0x6b)
    (hx 22 0x9cd5972e76ba8626a69d680cf584003045126c618cf8) = true := by decide +kernel

example : updatesAndEncrypts Lib.std .chacha20Poly1305Sha256 (List.replicate 32 0x6b)
    (hx 22 0xc4e48ccaf036b06034b81fbf4434c7827c2b4dc27963) = true := by decide +kernel

example : updatesAndEncrypts (Lib.std true) .chacha20Poly1305Sha256 (List.replicate 32 0x6b)
    (hx 22 0xc4e48ccaf036b06034b81fbf4434c7827c2b4dc27963) = true := by decide +kernel

end S2A.Conform
