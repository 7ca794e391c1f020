import Verif.Lemmas.HashTable
/-
C106: identities as keys.
-/
namespace S2A

/-- **C106, equality.**  Two identities are equal exactly if they have the same type and the same
string, so identities made from strings are equal exactly if they were made by the same function
from the same string, and an identity equals its copies. -/
theorem C106_equality (s t : Bytes) (a b : Identity) :
    (a.equals b = true ↔ a.type = b.type ∧ a.value = b.value) ∧
    ((Identity.fromSpiffeId s).equals (.fromSpiffeId t) = true ↔ s = t) ∧
    ((Identity.fromHostname s).equals (.fromHostname t) = true ↔ s = t) ∧
    ((Identity.fromUid s).equals (.fromUid t) = true ↔ s = t) ∧
    (Identity.fromSpiffeId s).equals (.fromHostname t) = false ∧
    (Identity.fromSpiffeId s).equals (.fromUid t) = false ∧
    (Identity.fromHostname s).equals (.fromUid t) = false ∧
    (∀ i ∈ [Identity.fromSpiffeId s, .fromHostname s, .fromUid s], i.equals .empty = false) ∧
    a.copy.equals a = true := by
  refine ⟨by simp [Identity.equals], ?_, ?_, ?_, ?_, ?_, ?_, ?_, ?_⟩ <;>
    simp [Identity.equals, Identity.fromSpiffeId, Identity.fromHostname, Identity.fromUid,
      Identity.empty, Identity.copy]

namespace HashTable

/-- **C106, hash.**  Equal identities have equal hashes, whatever the hash function makes of a type
and a string. -/
theorem C106_hash (H : Combine) (a b : Identity) (h : a.equals b = true) : hash H a = hash H b := by
  rw [(Identity.equals_iff a b).1 h]

/-- **C106, sets.**  After any setters have been called on new options, whatever the hash function:
the local identities are those that were added as local ones, each of them once, and the target
identities those that were added as target ones, each of them once. -/
theorem C106_options_sets (H : Combine) (ss : List TlsOptions.Setter) :
    (keys (ss.foldl (setLocal H) [])).Nodup ∧ (keys (ss.foldl (setTarget H) [])).Nodup ∧
    (∀ i, i ∈ keys (ss.foldl (setLocal H) []) ↔ ∃ s ∈ ss, addsLocal s = some i) ∧
    (∀ i, i ∈ keys (ss.foldl (setTarget H) []) ↔ ∃ s ∈ ss, addsTarget s = some i) := by
  obtain ⟨_, h1, _, h2⟩ := local_run H ss [] .default (by intro e he; cases he) List.nodup_nil rfl
  obtain ⟨_, k1, _, k2⟩ := target_run H ss [] .default (by intro e he; cases he) List.nodup_nil rfl
  refine ⟨h1, k1, fun i => ?_, fun i => ?_⟩
  · rw [h2]; simp [keys]
  · rw [k2]; simp [keys]

/-- **C106, the model.**  The lists that the rest of the model has for these sets are what the
tables contain, whatever the hash function. -/
theorem C106_options_model (H : Combine) (ss : List TlsOptions.Setter) :
    keys (ss.foldl (setLocal H) []) = (ss.foldl TlsOptions.apply .default).locals ∧
    keys (ss.foldl (setTarget H) []) = (ss.foldl TlsOptions.apply .default).targets :=
  ⟨(local_run H ss [] .default (by intro e he; cases he) List.nodup_nil rfl).2.2.1,
    (target_run H ss [] .default (by intro e he; cases he) List.nodup_nil rfl).2.2.1⟩

/-- **C106, the token cache.**  After any entries have been set and removed, whatever the hash
function: the cache has for each identity the token that was set last since the cache was cleared,
and no other entry; no identity has two; an identity is found exactly if it has a token. -/
theorem C106_token_cache (H : Combine) (ops : List CacheOp) :
    ((entries (ops.foldl (cacheStep H) [])).map (·.1)).Nodup ∧
    (∀ i v, (i, v) ∈ entries (ops.foldl (cacheStep H) []) ↔
      ops.foldl CacheOp.onMap (fun _ => none) i = some v) ∧
    (∀ i, contains H (ops.foldl (cacheStep H) []) i = true ↔
      (ops.foldl CacheOp.onMap (fun _ => none) i).isSome = true) := by
  obtain ⟨h1, h2, h3⟩ := cache_run H ops [] (fun _ => none) (by intro e he; cases he)
    List.nodup_nil (by simp [entries])
  refine ⟨h2, h3, fun i => ?_⟩
  rw [contains_cacheHas h1, Option.isSome_iff_exists]
  unfold Proxy.cacheHas
  rw [List.any_eq_true]
  constructor
  · rintro ⟨⟨k, v⟩, he, hk⟩
    have hk : k = i := by simpa using hk
    subst hk
    exact ⟨v, (h3 _ _).1 he⟩
  · rintro ⟨v, hv⟩
    exact ⟨_, (h3 _ _).2 hv, by simp⟩

/-- **C106, the model of the cache.**  The lookups and updates of the lists that the model of the
proxy has for its cache are those of the table, whatever the hash function. -/
theorem C106_token_cache_model (H : Combine) (ops : List CacheOp) (k : Identity) (v : Bytes) :
    contains H (ops.foldl (cacheStep H) []) k =
      Proxy.cacheHas (entries (ops.foldl (cacheStep H) [])) k ∧
    entries (cacheStep H (ops.foldl (cacheStep H) []) (.assign k v)) =
      Proxy.cacheSet (entries (ops.foldl (cacheStep H) [])) k v ∧
    (entries (ops.foldl (cacheStep H) [])).length = (ops.foldl (cacheStep H) []).length := by
  obtain ⟨h1, _, _⟩ := cache_run H ops [] (fun _ => none) (by intro e he; cases he)
    List.nodup_nil (by simp [entries])
  exact ⟨contains_cacheHas h1 k, assign_entries h1 k v, by simp [entries]⟩

/-- The same identities under a hash function that sends everything to one number, and
under one that uses the length of the string only. -/
example : keys ([TlsOptions.Setter.addLocalUid [1], .addLocalHostname [1], .addTargetUid [2],
      .addLocalUid [1], .addLocalUid []].foldl (setLocal (fun _ _ => 0)) [])
      = [.fromUid [1], .fromHostname [1], .fromUid []] ∧
    keys ([TlsOptions.Setter.addLocalUid [1], .addLocalHostname [1], .addTargetUid [2],
      .addLocalUid [1], .addLocalUid []].foldl (setLocal (fun _ s => s.length)) [])
      = [.fromUid [1], .fromHostname [1], .fromUid []] ∧
    keys ([TlsOptions.Setter.addLocalUid [1], .addTargetUid [2], .addTargetUid [2],
      .addTargetSpiffeId [2]].foldl (setTarget (fun _ _ => 0)) [])
      = [.fromUid [2], .fromSpiffeId [2]] := by decide +kernel

example : entries ([CacheOp.assign (.fromUid [1]) [7], .clear, .assign (.fromUid [2]) [8],
      .assign (.fromHostname [2]) [9], .assign (.fromUid [2]) [5]].foldl
        (cacheStep (fun _ _ => 0)) [])
      = [(.fromUid [2], [5]), (.fromHostname [2], [9])] := by decide +kernel

end HashTable

example : (Identity.fromUid [1, 2]).equals (.fromUid [1, 2]) = true ∧
    (Identity.fromUid [1, 2]).equals (.fromUid [1]) = false ∧
    (Identity.fromUid [1, 2]).equals (.fromHostname [1, 2]) = false := by decide +kernel

end S2A
