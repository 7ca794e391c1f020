import Verif.Model.TlsOptions
import Verif.Model.Proxy
/-
Identities as keys of `absl::flat_hash_set` and `absl::flat_hash_map`
(include/s2a_options.h:63-74, 139-140; include/s2a_proxy.h:125-126).  Everywhere else in the model
a set of identities is a list without repetitions and a map a list of entries; here is what these
lists stand for.
-/
namespace S2A

/-- `Identity::operator==` (src/options/s2a_options.cc:55-58). -/
def Identity.equals (a b : Identity) : Bool := a.type == b.type && a.value == b.value

/-- The copy constructor (src/options/s2a_options.cc:49-50). -/
def Identity.copy (a : Identity) : Identity := ⟨a.type, a.value⟩

namespace HashTable

/-- What `H::combine` makes of a type and a string.  It depends on a seed that differs from one
process to the next; nothing is assumed of it. [include/s2a_options.h:70-73] -/
abbrev Combine := IdentityType → Bytes → Nat

/-- `AbslHashValue` (include/s2a_options.h:69-73). -/
def hash (H : Combine) (i : Identity) : Nat := H i.type i.value

/-- A hash table: entries with their hash, in the order of insertion (the order of iteration is
another, see `Proxy.Env`).  The probing of the slots is not modelled.
[library: `absl::flat_hash_set` and `absl::flat_hash_map`] -/
abbrev Table (V : Type) := List (Nat × Identity × V)

/-- Is this the entry that is looked for?  The table compares the hash first and calls `operator==`
only if it agrees. [library contract of `absl::flat_hash_map`] -/
def hit {V : Type} (H : Combine) (k : Identity) (e : Nat × Identity × V) : Bool :=
  e.1 == hash H k && e.2.1.equals k

/-- `contains` (src/handshaker/s2a_proxy.cc:122, 145). -/
def contains {V : Type} (H : Combine) (t : Table V) (k : Identity) : Bool := t.any (hit H k)

/-- `insert`/`emplace` of a set or map: nothing happens if the key is there.
[src/options/s2a_options.cc:104-126] -/
def insert {V : Type} (H : Combine) (t : Table V) (k : Identity) (v : V) : Table V :=
  if contains H t k then t else t ++ [(hash H k, k.copy, v)]

/-- `t[k] = v` (src/handshaker/s2a_proxy.cc:132, 153, 165): the value of the entry that is there is
replaced, its key is not. -/
def assign {V : Type} (H : Combine) (t : Table V) (k : Identity) (v : V) : Table V :=
  if contains H t k then t.map fun e => if hit H k e then (e.1, e.2.1, v) else e
  else t ++ [(hash H k, k.copy, v)]

/-- The elements of a set. [include/s2a_options.h:92-93] -/
def keys {V : Type} (t : Table V) : List Identity := t.map (·.2.1)

/-- The entries of a map. [src/handshaker/s2a_proxy.cc:496, 647, 716] -/
def entries {V : Type} (t : Table V) : List (Identity × V) := t.map (·.2)

/-- What a setter does to the table of local identities (src/options/s2a_options.cc:104-114). -/
def setLocal (H : Combine) (t : Table Unit) : TlsOptions.Setter → Table Unit
  | .addLocalSpiffeId s => insert H t (.fromSpiffeId s) ()
  | .addLocalHostname s => insert H t (.fromHostname s) ()
  | .addLocalUid s => insert H t (.fromUid s) ()
  | _ => t

/-- What a setter does to the table of target identities (src/options/s2a_options.cc:116-126). -/
def setTarget (H : Combine) (t : Table Unit) : TlsOptions.Setter → Table Unit
  | .addTargetSpiffeId s => insert H t (.fromSpiffeId s) ()
  | .addTargetHostname s => insert H t (.fromHostname s) ()
  | .addTargetUid s => insert H t (.fromUid s) ()
  | _ => t

/-- What is done to the token cache of a proxy: an entry is set, or all are removed.
[src/handshaker/s2a_proxy.cc:131-132, 153, 165] -/
inductive CacheOp
  | assign (k : Identity) (v : Bytes)
  | clear

/-- One of these. [src/handshaker/s2a_proxy.cc:131-132, 153, 165] -/
def cacheStep (H : Combine) (t : Table Bytes) : CacheOp → Table Bytes
  | .assign k v => assign H t k v
  | .clear => []

end HashTable
end S2A
