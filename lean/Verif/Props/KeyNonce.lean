import Verif.Lemmas.KeyNonce
import Verif.Props.Crypter
/-
C14 in terms of the keys: no pair of key and nonce is used twice, unless the key derivation gives
the same key twice.
-/
set_option maxRecDepth 100000

namespace S2A.Record
open Spec (keyNonces keyAfter)

/-- **C14.**  For every history of `Protect`, `Unprotect` and key-update calls, with any failures: if
the keys that the key schedule gives after different numbers of updates are different, up to the
number of updates there were, then no two AEAD calls of a direction, whenever they were made, have
the same key and the same nonce. -/
theorem C14_key_nonce_pairs (L : Lib) (a : CreateArgs) (s : Spec.Suite) (c : Conn) (evs : List Event)
    (hs : Spec.suite a.ciphersuite = some s) (hr : Reach L a c evs) :
    ((∀ m n, m < n → n ≤ Spec.rekeys (outTrace evs) →
        keyAfter L s a.outSecret m ≠ keyAfter L s a.outSecret n) →
      (keyNonces (outTrace evs)).Nodup) ∧
    ((∀ m n, m < n → n ≤ Spec.rekeys (inTrace evs) →
        keyAfter L s a.inSecret m ≠ keyAfter L s a.inSecret n) →
      (keyNonces (inTrace evs)).Nodup) := by
  obtain ⟨f1, f2⟩ := C16_C17_connection_follows_rfc8446 L a s c evs hs hr
  obtain ⟨n1, n2⟩ := C14_connection_nonces_unique L a c evs hr
  exact ⟨fun h => Spec.keyNonces_nodup f1 n1 fun m n _ x y => h m n x (by omega),
    fun h => Spec.keyNonces_nodup f2 n2 fun m n _ x y => h m n x (by omega)⟩

open Demo in
/-- Witness: two records, a key update, and two more; the two keys are different. -/
example : ∃ c evs, run Lib.toy right
      [.protect .none .applicationData [.buf [1]] (.buf (zeros 23)),
       .protect .none .applicationData [.buf [2]] (.buf (zeros 23)),
       .updateOutboundKey .none,
       .protect .none .applicationData [.buf [1]] (.buf (zeros 23)),
       .protect .none .applicationData [.buf [2]] (.buf (zeros 23))] = .ok (c, evs) ∧
    Spec.rekeys (outTrace evs) = 1 ∧ (keyNonces (outTrace evs)).length = 4 ∧
    keyAfter Lib.toy suite rightArgs.outSecret 0 ≠ keyAfter Lib.toy suite rightArgs.outSecret 1 := by
  refine ⟨_, _, rfl, ?_, ?_, ?_⟩ <;> decide +kernel

end S2A.Record
