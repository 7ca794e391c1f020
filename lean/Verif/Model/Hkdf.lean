import Verif.Model.Prims
/-
src/crypto/hkdf.cc
-/
namespace S2A.Hkdf

/-- How many bytes of the current block to copy (src/crypto/hkdf.cc:53-56). -/
def todoLen (done digestSize outLen : Nat) : Exec Nat :=
  if done + digestSize > outLen then subSize outLen done else .ok digestSize

/-- The loop of `HkdfDerivation` (src/crypto/hkdf.cc:39-59) with `m` iterations to
go, at iteration `i`; `buffer` is the digest buffer, `out` the output vector.
`HMAC_Init_ex` at line 35 copies the key, so later iterations (lines 41-42, which pass
a null key) use the original `prk` even if `out` is the same vector. -/
def loop (L : Lib) (h : HashFn) (f : HkdfFault) (prk info : Bytes) :
    (m i : Nat) → (buffer : Bytes) → (done : Nat) → (out : Bytes) → Exec (StatusCode × Bytes)
  | 0, _, _, _, out => .ok (.ok, out)
  | m + 1, i, buffer, done, out =>
    if f.step i then .ok (.internal, out)
    else
      -- lines 40-49: T(i) = HMAC(prk, T(i-1) | info | i+1); `ctr` is a uint8_t
      let msg := (if i = 0 then [] else buffer) ++ info ++ [UInt8.ofNat (i + 1)]
      let buffer' := L.hmac h prk msg
      -- lines 53-58
      do
        let todo ← todoLen done h.digestSize out.length
        let out' ← writeAt out done (buffer'.take todo)
        loop L h f prk info m (i + 1) buffer' (done + todo) out'

/-- `HkdfDerivation` (src/crypto/hkdf.cc:30-61). -/
def derivation (L : Lib) (h : HashFn) (f : HkdfFault) (n : Nat) (prk info out : Bytes) :
    Exec (StatusCode × Bytes) :=
  if f.init then .ok (.internal, out)
  else loop L h f prk info n 0 [] 0 out

/-- `HkdfDeriveSecret` (src/crypto/hkdf.cc:63-108).  Returns the status and the new
contents of `out`.  The test `out.size() + digest_size < out.size()` (line 87) is a
64-bit overflow test that cannot fire for a vector that exists; it is dropped.
Line numbers 98-102: creating the HMAC context can fail (OpenSSL >= 1.1.0). -/
def deriveSecret (L : Lib) (f : HkdfFault) (h : HashFn) (prk info out : Bytes) :
    Exec (StatusCode × Bytes) :=
  match h with
  | .other => .ok (.invalidArgument, out)
  | h =>
    if prk.length < h.digestSize then .ok (.invalidArgument, out)
    else
      let n := (out.length + h.digestSize - 1) / h.digestSize
      if n > 255 then .ok (.internal, out)
      else if f.ctxNew then .ok (.internal, out)
      else derivation L h f n prk info out

end S2A.Hkdf
