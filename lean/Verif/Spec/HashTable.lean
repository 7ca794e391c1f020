import Verif.Model.HashTable
/-
What the sets and the map keyed by identities should contain, for C106.
-/
namespace S2A.HashTable

/-- The identity a setter adds to the local ones. -/
def addsLocal : TlsOptions.Setter → Option Identity
  | .addLocalSpiffeId s => some ⟨.spiffeId, s⟩
  | .addLocalHostname s => some ⟨.hostname, s⟩
  | .addLocalUid s => some ⟨.uid, s⟩
  | _ => none

/-- The identity a setter adds to the target ones. -/
def addsTarget : TlsOptions.Setter → Option Identity
  | .addTargetSpiffeId s => some ⟨.spiffeId, s⟩
  | .addTargetHostname s => some ⟨.hostname, s⟩
  | .addTargetUid s => some ⟨.uid, s⟩
  | _ => none

/-- The map that a token cache stands for: which token each identity has.  Setting an entry changes
the token of that identity and of no other; clearing removes all. -/
def CacheOp.onMap (m : Identity → Option Bytes) : CacheOp → Identity → Option Bytes
  | .assign k v => fun i => if i = k then some v else m i
  | .clear => fun _ => none

end S2A.HashTable
