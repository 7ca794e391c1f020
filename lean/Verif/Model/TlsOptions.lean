import Verif.Model.Options
/-
The options object of include/s2a_options.h and src/options/s2a_options.cc.
-/
namespace S2A

/-- `Identity::GetEmptyIdentity` (src/options/s2a_options.cc:33-35). -/
def Identity.empty : Identity := ⟨.none, []⟩

/-- `Identity::FromHostname` (src/options/s2a_options.cc:37-39). -/
def Identity.fromHostname (s : Bytes) : Identity := ⟨.hostname, s⟩

/-- `Identity::FromSpiffeId` (src/options/s2a_options.cc:41-43). -/
def Identity.fromSpiffeId (s : Bytes) : Identity := ⟨.spiffeId, s⟩

/-- `Identity::FromUid` (src/options/s2a_options.cc:45-47). -/
def Identity.fromUid (s : Bytes) : Identity := ⟨.uid, s⟩

/-- `flat_hash_set::insert`: a set is the list of its elements in the order of insertion.  The
order in which the code iterates over it is not this one; see `Proxy.Env`.
[include/s2a_options.h:139-140] -/
def insertId (s : List Identity) (i : Identity) : List Identity :=
  if i ∈ s then s else s ++ [i]

/-- `S2AOptions` (include/s2a_options.h:136-142). -/
structure TlsOptions where
  minTlsVersion : TlsVersion
  maxTlsVersion : TlsVersion
  s2aAddress : Bytes
  ciphersuites : List Ciphersuite
  targets : List Identity
  locals : List Identity
  deriving DecidableEq, Repr

namespace TlsOptions

/-- The default constructor (include/s2a_options.h:136-142). -/
def default : TlsOptions := ⟨.tls1_3, .tls1_3, [], [], [], []⟩

/-- The setters (src/options/s2a_options.cc:88-126). -/
inductive Setter
  | minTlsVersion (v : TlsVersion)
  | maxTlsVersion (v : TlsVersion)
  | s2aAddress (a : Bytes)
  | addCiphersuite (c : Ciphersuite)
  | addLocalSpiffeId (s : Bytes)
  | addLocalHostname (s : Bytes)
  | addLocalUid (s : Bytes)
  | addTargetSpiffeId (s : Bytes)
  | addTargetHostname (s : Bytes)
  | addTargetUid (s : Bytes)
  deriving DecidableEq, Repr

/-- src/options/s2a_options.cc:88-126. -/
def apply (o : TlsOptions) : Setter → TlsOptions
  | .minTlsVersion v => { o with minTlsVersion := v }
  | .maxTlsVersion v => { o with maxTlsVersion := v }
  | .s2aAddress a => { o with s2aAddress := a }
  | .addCiphersuite c => { o with ciphersuites := o.ciphersuites ++ [c] }
  | .addLocalSpiffeId s => { o with locals := insertId o.locals (.fromSpiffeId s) }
  | .addLocalHostname s => { o with locals := insertId o.locals (.fromHostname s) }
  | .addLocalUid s => { o with locals := insertId o.locals (.fromUid s) }
  | .addTargetSpiffeId s => { o with targets := insertId o.targets (.fromSpiffeId s) }
  | .addTargetHostname s => { o with targets := insertId o.targets (.fromHostname s) }
  | .addTargetUid s => { o with targets := insertId o.targets (.fromUid s) }

/-- `S2AOptions::Copy` (src/options/s2a_options.cc:128-139): a new object, the setters, the
assignment of the two sets, and the loop over the ciphersuites. -/
def copy (o : TlsOptions) : TlsOptions :=
  let n := default
  let n := n.apply (.minTlsVersion o.minTlsVersion)
  let n := n.apply (.maxTlsVersion o.maxTlsVersion)
  let n := n.apply (.s2aAddress o.s2aAddress)
  let n := { n with locals := o.locals }
  let n := { n with targets := o.targets }
  o.ciphersuites.foldl (fun n c => n.apply (.addCiphersuite c)) n

/-- What a program does with options objects, named by the order of their creation: make a new
one, copy one, call a setter of one. [the user of include/s2a_options.h] -/
inductive Op
  | create
  | copy (i : Nat)
  | set (i : Nat) (s : Setter)
  deriving DecidableEq, Repr

/-- The objects after one operation.  Operations on an object that does not exist are not
programs; they are ignored. [the user of include/s2a_options.h] -/
def step (objs : List TlsOptions) : Op → List TlsOptions
  | .create => objs ++ [default]
  | .copy i => match objs[i]? with
    | some o => objs ++ [o.copy]
    | none => objs
  | .set i s => objs.modify i (·.apply s)

/-- The objects after a history. [the user of include/s2a_options.h] -/
def run (ops : List Op) : List TlsOptions := ops.foldl step []

end TlsOptions
end S2A
