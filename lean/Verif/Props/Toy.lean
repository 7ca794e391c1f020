import Verif.Model.Prims
/-
A concrete crypto library, only used in `example`s (to show that hypotheses can be met)
and in counterexamples (to exhibit a failing run).
-/
namespace S2A

/-- Sum of the bytes, modulo 256. -/
def Toy.sum (b : Bytes) : UInt8 := b.foldl (· + ·) 0

/-- A toy HMAC, key stream and MAC with the right output sizes. -/
def Lib.toy (boring : Bool := false) : Lib where
  boring := boring
  hmac h k m := (List.range h.digestSize).map fun i =>
    Toy.sum k + 3 * Toy.sum m + 5 * UInt8.ofNat i
  hmac_len h k m := by simp
  ks _ k n i := Toy.sum k + 7 * Toy.sum n + 11 * UInt8.ofNat i + 1
  mac _ k n a c := (List.range 16).map fun i =>
    Toy.sum k + 3 * Toy.sum n + 5 * Toy.sum a + 7 * Toy.sum c + UInt8.ofNat i
  mac_len a k n d c := by simp

end S2A
