import Verif.Spec.Nonces
/-
Keys together with nonces.
-/
namespace S2A.Spec

/-- The pairs of key and nonce of the AEAD calls. -/
def keyNonces : List KeyUse → List (Bytes × Bytes)
  | [] => []
  | .aead key nonce :: us => (key, nonce) :: keyNonces us
  | .rekey :: us => keyNonces us

/-- The number of key updates. -/
def rekeys : List KeyUse → Nat
  | [] => 0
  | .aead _ _ :: us => rekeys us
  | .rekey :: us => rekeys us + 1

/-- The key that is in use after `n` updates of a secret. -/
def keyAfter (L : Lib) (s : Suite) (secret : Bytes) (n : Nat) : Bytes :=
  trafficKey L s.hash (secretAfter L s.hash secret n) s.keyLen

end S2A.Spec
