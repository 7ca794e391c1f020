import Verif.Model.Context
/-
What options objects, identities and contexts should look like.
-/
namespace S2A.Spec
open TlsOptions (Op Setter)

/-- The setter calls in the past of every options object: an object made by `Copy` has the
past of the original at that time. -/
def pastStep (pasts : List (List Setter)) : Op → List (List Setter)
  | .create => pasts ++ [[]]
  | .copy i => pasts ++ (pasts[i]?).toList
  | .set i s => pasts.modify i (· ++ [s])

/-- The setter calls in the past of every object after a history. -/
def pasts (ops : List Op) : List (List Setter) := ops.foldl pastStep []

/-- The minimal TLS version set by a call. -/
def setsMin : Setter → Option TlsVersion
  | .minTlsVersion v => some v
  | _ => none

/-- The maximal TLS version set by a call. -/
def setsMax : Setter → Option TlsVersion
  | .maxTlsVersion v => some v
  | _ => none

/-- The address set by a call. -/
def setsAddress : Setter → Option Bytes
  | .s2aAddress a => some a
  | _ => none

/-- The ciphersuite added by a call. -/
def addsCiphersuite : Setter → Option Ciphersuite
  | .addCiphersuite c => some c
  | _ => none

/-- The local identity added by a call. -/
def addsLocal : Setter → Option Identity
  | .addLocalSpiffeId s => some ⟨.spiffeId, s⟩
  | .addLocalHostname s => some ⟨.hostname, s⟩
  | .addLocalUid s => some ⟨.uid, s⟩
  | _ => none

/-- The target identity added by a call. -/
def addsTarget : Setter → Option Identity
  | .addTargetSpiffeId s => some ⟨.spiffeId, s⟩
  | .addTargetHostname s => some ⟨.hostname, s⟩
  | .addTargetUid s => some ⟨.uid, s⟩
  | _ => none

/-- An object shows exactly the effect of the calls `h` on a new object: the last value set
(TLS 1.3 and the empty address if none was), all ciphersuites in order, and the sets of
identities without repetition. -/
structure Shows (o : TlsOptions) (h : List Setter) : Prop where
  minTlsVersion : o.minTlsVersion = (h.filterMap setsMin).getLast?.getD .tls1_3
  maxTlsVersion : o.maxTlsVersion = (h.filterMap setsMax).getLast?.getD .tls1_3
  s2aAddress : o.s2aAddress = (h.filterMap setsAddress).getLast?.getD []
  ciphersuites : o.ciphersuites = h.filterMap addsCiphersuite
  locals : ∀ i, i ∈ o.locals ↔ i ∈ h.filterMap addsLocal
  locals_once : o.locals.Nodup
  targets : ∀ i, i ∈ o.targets ↔ i ∈ h.filterMap addsTarget
  targets_once : o.targets.Nodup

/-- The identities that can be made through the API. -/
def Made (i : Identity) : Prop :=
  i = .empty ∨ ∃ s, i = .fromSpiffeId s ∨ i = .fromHostname s ∨ i = .fromUid s

/-- `TLSVersion` (common.proto:31-34) of a version. -/
def wireTlsVersion : TlsVersion → Option Nat
  | .tls1_2 => some 0
  | .tls1_3 => some 1
  | .other _ => none

/-- `Ciphersuite` (common.proto:24-28) of a ciphersuite. -/
def wireCiphersuite : Ciphersuite → Option Nat
  | .aes128GcmSha256 => some 0
  | .aes256GcmSha384 => some 1
  | .chacha20Poly1305Sha256 => some 2
  | .other _ => none

/-- The `Identity` message (common.proto:36-50) of an identity. -/
def wireIdentity (i : Identity) : Option Proto.PIdentity :=
  match i.type with
  | .spiffeId => some (.spiffeId i.value)
  | .hostname => some (.hostname i.value)
  | .uid => some (.uid i.value)
  | .none => none

/-- No NUL byte. -/
def NoNul (s : Bytes) : Prop := 0 ∉ s

/-- A string with NUL bytes is cut off at the first one. -/
def cut (s : Bytes) : Bytes := s.takeWhile (· ≠ 0)

end S2A.Spec
