import Verif.Spec.Tls
/-
What RFC 8446 prescribes for the AEAD calls of one direction of a connection.
-/
namespace S2A.Spec

/-- What happens to the keys of one direction: an AEAD call with a key and a nonce, or a
successful key update. -/
inductive KeyUse
  | aead (key nonce : Bytes)
  | rekey
  deriving DecidableEq, Repr

/-- The nonces used, each with the number of key updates before it. -/
def epochNonces : Nat → List KeyUse → List (Nat × Bytes)
  | _, [] => []
  | e, .aead _ nonce :: us => (e, nonce) :: epochNonces e us
  | e, .rekey :: us => epochNonces (e + 1) us

/-- The calls follow the key schedule: in epoch `n` (after `n` key updates) with sequence
number `seq`, the key is the traffic key of the `n`-th secret and the nonce is that secret's
IV masked with `seq`; the sequence number then grows by one, and restarts from zero after an
update. -/
def Follows (L : Lib) (s : Suite) (secret : Bytes) : (n seq : Nat) → List KeyUse → Prop
  | _, _, [] => True
  | n, seq, .aead key nonce :: us =>
    key = trafficKey L s.hash (secretAfter L s.hash secret n) s.keyLen ∧
    nonce = recordNonce (trafficIv L s.hash (secretAfter L s.hash secret n)) seq ∧
    seq < 2 ^ 64 ∧
    Follows L s secret n (seq + 1) us
  | n, _, .rekey :: us => Follows L s secret (n + 1) 0 us

end S2A.Spec
