import Verif.Lemmas.FrameAdversary
import Verif.Props.Frame
/-
Properties C61 and C62: delivery when the network is an attacker.

End `B` is given arbitrary bytes.  `Unforged evsA evsB`: in this run, every AEAD decryption
that succeeded at `B` is of a ciphertext that one of the two ends made under the same key,
nonce and header.  `KeysDistinct`: in this run, the traffic keys of different epochs and of the
two directions differ.  Both speak about the AEAD calls only (Spec/Adversary.lean); nothing is
said about order, positions or plaintexts.
-/
namespace S2A.Record
open Spec (Unforged KeysDistinct Mirrored sentData deliveredData ValidArgs DataOnly)
open Demo

set_option maxRecDepth 100000

/-! ## C61: nothing is inserted, duplicated, reordered or changed -/

/-- Of two connections with matching keys, `A` makes any calls and `B` is given any bytes.
If no tag was forged, then what `B` delivers is a subsequence of the application data that was
given to successful `Protect` calls of `A`: each piece at most once, unchanged, in order. -/
theorem C61_delivered_subsequence (L : Lib) (s : Spec.Suite) (a b : CreateArgs)
    (a0 ca b0 cb : Conn) (opsA opsB : List Op) (evsA evsB : List Event)
    (hs : Spec.suite b.ciphersuite = some s) (hm : Mirrored a b) (ha0 : Created L a a0)
    (hb0 : Created L b b0) (hra : run L a0 opsA = .ok (ca, evsA))
    (hrb : run L b0 opsB = .ok (cb, evsB)) (hva : ∀ op ∈ opsA, ValidArgs op)
    (hvb : ∀ op ∈ opsB, ValidArgs op) (hu : Unforged evsA evsB)
    (hk : KeysDistinct L s b evsA evsB) :
    ((deliveredData evsB).filter (· ≠ [])).Sublist (sentData opsA evsA) :=
  delivered_subsequence hs hm ha0 hb0 hra hrb hva hvb hu hk

/-- `A` sends two messages, a key update and another message. -/
def advSends : List Op :=
  [.protect .none .applicationData [.buf [1]] (.buf (zeros 23)),
   .protect .none .applicationData [.buf [2], .buf [2]] (.buf (zeros 24)),
   .protect .none .handshake [.buf [24, 0, 0, 1, 0]] (.buf (zeros 27)),
   .updateOutboundKey .none,
   .protect .none .applicationData [.buf [3]] (.buf (zeros 23))]

/-- The network delivers the first record twice, drops the second, and delivers the rest. -/
def advReceives : List Op :=
  recvs [(pos 0, [1, 23]), (pos 0, [1, 23]), (pos 2, [24, 0, 0, 1, 0, 22]), (upd (pos 3), [3, 23])]

theorem adv_keys (evsA evsB : List Event) (h1 : Spec.epochs (outTrace evsA) = 1)
    (h2 : Spec.epochs (inTrace evsB) = 1) (h3 : Spec.epochs (outTrace evsB) = 0) :
    KeysDistinct Lib.toy suite rightArgs evsA evsB :=
  ⟨by rw [h1, h2]; decide +kernel, by rw [h2, h3]; decide +kernel⟩

instance (evsA evsB : List Event) : Decidable (Unforged evsA evsB) := by
  unfold Unforged; infer_instance

theorem recv_valid (l : List (Spec.Dir × Bytes)) : ∀ op ∈ recvs l, ValidArgs op := by
  intro op ho
  obtain ⟨x, _, rfl⟩ := List.mem_map.1 ho
  refine ⟨fun v hv => ?_, trivial⟩
  rw [List.mem_singleton.1 hv]
  trivial

example : ∃ ca evsA cb evsB, run Lib.toy left advSends = .ok (ca, evsA) ∧
    run Lib.toy right advReceives = .ok (cb, evsB) ∧ Mirrored leftArgs rightArgs ∧
    (∀ op ∈ advSends, ValidArgs op) ∧ (∀ op ∈ advReceives, ValidArgs op) ∧
    Unforged evsA evsB ∧ KeysDistinct Lib.toy suite rightArgs evsA evsB ∧
    sentData advSends evsA = [[1], [2, 2], [3]] ∧ deliveredData evsB = [[1], [], [3]] := by
  refine ⟨_, _, _, _, rfl, rfl, ⟨rfl, rfl, rfl⟩, ?_, recv_valid _, by decide +kernel,
    adv_keys _ _ (by decide +kernel) (by decide +kernel) (by decide +kernel), by decide +kernel,
    by decide +kernel⟩
  intro op ho
  simp only [advSends, List.mem_cons, List.not_mem_nil, or_false] at ho
  rcases ho with rfl | rfl | rfl | rfl | rfl <;> trivial

/-! ## C62: until the first error, a prefix -/

/-- If moreover `A` only sends application data with one key, and no `Unprotect` call of `B`
has failed so far, then what `B` has delivered is a prefix of what `A` has sent. -/
theorem C62_delivered_prefix (L : Lib) (s : Spec.Suite) (a b : CreateArgs)
    (a0 ca b0 cb : Conn) (opsA opsB : List Op) (evsA evsB : List Event)
    (hs : Spec.suite b.ciphersuite = some s) (hm : Mirrored a b) (ha0 : Created L a a0)
    (hb0 : Created L b b0) (hra : run L a0 opsA = .ok (ca, evsA))
    (hrb : run L b0 opsB = .ok (cb, evsB)) (hva : ∀ op ∈ opsA, ValidArgs op)
    (hvb : ∀ op ∈ opsB, ValidArgs op) (hu : Unforged evsA evsB)
    (hk : KeysDistinct L s b evsA evsB) (hd : ∀ op ∈ opsA, DataOnly op)
    (hok : ∀ r, .opened r ∈ evsB → r.code = .ok) :
    deliveredData evsB <+: sentData opsA evsA :=
  delivered_prefix hs hm ha0 hb0 hra hrb hva hvb hu hk hd hok

/-- After an error the rest need not be a prefix: the connection goes on to accept records, so
with the first of two records replaced by garbage, the second message alone is delivered. -/
theorem C62_gap_after_error : ∃ ca evsA cb evsB,
    run Lib.toy left (advSends.take 2) = .ok (ca, evsA) ∧
    run Lib.toy right [.unprotect .none (.buf (Spec.recordHeader 18)) [.buf (zeros 18)]
      (.buf (zeros 2)), recv (pos 1) [2, 2, 23]] = .ok (cb, evsB) ∧
    Unforged evsA evsB ∧ sentData (advSends.take 2) evsA = [[1], [2, 2]] ∧
    deliveredData evsB = [[2, 2]] :=
  ⟨_, _, _, _, rfl, rfl, by decide +kernel, by decide +kernel, by decide +kernel⟩

end S2A.Record

namespace S2A.Frame
open Spec (AllocOk Unforged KeysDistinct Mirrored SendsOk ReceivesOk sentBytes receivedBytes
  ValidFrameArgs)
open Demo

set_option maxRecDepth 100000

/-- Two frame protectors with matching keys; the network gives `B` any bytes in any pieces.
If no tag was forged, no `Protect` call of `A` and no `Unprotect` call of `B` has failed so
far, then the bytes `B` has delivered are a prefix of the bytes given to `A`. -/
theorem C62_frame_prefix (L : Lib) (A A' : Allocator) (hA : AllocOk A) (hA' : AllocOk A')
    (su : Spec.Suite) (o p : Options) (a0 sa b0 sb : State) (opsA opsB : List Op)
    (resA resB : List Event) (hs : Spec.suite p.crypter.ciphersuite = some su)
    (hm : Mirrored o.crypter p.crypter) (ha0 : Created L o a0) (hb0 : Created L p b0)
    (hra : run L A a0 opsA = .ok (sa, resA)) (hrb : run L A' b0 opsB = .ok (sb, resB))
    (hva : ∀ op ∈ opsA, ValidFrameArgs op) (hvb : ∀ op ∈ opsB, ValidFrameArgs op)
    (hu : Unforged sa.evs sb.evs) (hk : KeysDistinct L su p.crypter sa.evs sb.evs)
    (hsend : SendsOk opsA resA) (hrecv : ReceivesOk opsB resB) :
    receivedBytes opsB resB <+: sentBytes opsA := by
  obtain ⟨_, _, _, ca, _, _, _, ea⟩ := created_inv ha0
  obtain ⟨_, _, _, cb, _, _, _, eb⟩ := created_inv hb0
  obtain ⟨ra, va, a1, a2, _⟩ := run_sim hA hva hra
  obtain ⟨rb, vb, b1, _, b3⟩ := run_sim hA' hvb hrb
  obtain ⟨b3, b4⟩ := b3 hrecv
  have hea : sa.evs = va := by rw [a1.evs, ea]; rfl
  have heb : sb.evs = vb := by rw [b1.evs, eb]; rfl
  rw [hea, heb] at hu hk
  have hpre := Record.delivered_prefix (a := o.args) (b := p.args) (s := su) hs
    ⟨hm.suite, hm.secret, hm.seq⟩ ca cb a1.run b1.run (fun op h => (a1.valid op h).1)
    (fun op h => (b1.valid op h).1) hu ⟨hk.epoch, hk.direction⟩
    (fun op h => (a1.valid op h).2) b4
  rw [← a2 hsend, ← b3]
  obtain ⟨t, ht⟩ := hpre
  rw [← ht, List.flatten_append]
  exact List.prefix_append _ _

/-- Three messages are sent; the first two have arrived, in one call, cut at odd places. -/
example : ∃ sa resA sb resB w1 w2, 
    run Lib.toy alloc leftS [.protect (fun _ => .none) [.buf [1, 2]],
      .protect (fun _ => .none) [.buf [3]], .protect (fun _ => .none) [.buf [4]]] =
        .ok (sa, resA) ∧
    run Lib.toy alloc rightS [.unprotect (fun _ => .none) [.buf w1, .buf w2]] = .ok (sb, resB) ∧
    Mirrored leftO.crypter rightO.crypter ∧ Unforged sa.evs sb.evs ∧
    KeysDistinct Lib.toy Record.Demo.suite rightO.crypter sa.evs sb.evs ∧
    SendsOk [.protect (fun _ => .none) [.buf [1, 2]],
      .protect (fun _ => .none) [.buf [3]], .protect (fun _ => .none) [.buf [4]]] resA ∧
    ReceivesOk [.unprotect (fun _ => .none) [.buf w1, .buf w2]] resB ∧
    receivedBytes [.unprotect (fun _ => .none) [.buf w1, .buf w2]] resB = [1, 2, 3] := by
  refine ⟨_, _, _, _, (record 0 [1, 2, 23] ++ record 1 [3, 23]).take 30,
    (record 0 [1, 2, 23] ++ record 1 [3, 23]).drop 30, rfl, rfl, ⟨rfl, rfl, rfl⟩,
    by decide +kernel, ?_, ?_, ?_, by decide +kernel⟩
  · exact ⟨by decide +kernel, by decide +kernel⟩
  · exact ⟨rfl, rfl, rfl, trivial⟩
  · exact ⟨rfl, trivial⟩

end S2A.Frame
