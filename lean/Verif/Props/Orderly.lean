import Verif.Lemmas.Close
import Verif.Lemmas.FrameLoss
import Verif.Props.Adversary
/-
Properties C61 and C62 for frame protectors that receive from a sender that also sends tickets,
alerts and key updates; C63: what arrives before a close-notify is everything; C64: what a
failing call loses.
-/
namespace S2A.Record
open Spec (Unforged KeysDistinct Mirrored sentData deliveredData ValidArgs sentHandshakes Orderly
  GoodMessages ClosesLast CompletesUpdate view)
open Demo

set_option maxRecDepth 100000

/-! ## C62 for any orderly sender -/

/-- Of two connections with matching keys, `A` sends whatever it likes -- data, alerts, tickets,
key updates, each followed by its own key update -- and `B` is given any bytes.  If no tag was
forged and no `Unprotect` call of `B` has failed so far, then the bytes `B` has delivered are a
prefix of the application data `A` has sent. -/
theorem C62_orderly_prefix (L : Lib) (s : Spec.Suite) (a b : CreateArgs)
    (a0 ca b0 cb : Conn) (opsA opsB : List Op) (evsA evsB : List Event)
    (hs : Spec.suite b.ciphersuite = some s) (hm : Mirrored a b) (ha0 : Created L a a0)
    (hb0 : Created L b b0) (hra : run L a0 opsA = .ok (ca, evsA))
    (hrb : run L b0 opsB = .ok (cb, evsB)) (hva : ∀ op ∈ opsA, ValidArgs op)
    (hvb : ∀ op ∈ opsB, ValidArgs op) (hu : Unforged evsA evsB)
    (hk : KeysDistinct L s b evsA evsB) (ho : Orderly [] opsA evsA)
    (hg : GoodMessages (sentHandshakes opsA evsA))
    (hok : ∀ r, .opened r ∈ evsB → r.code = .ok) :
    (deliveredData evsB).flatten <+: (sentData opsA evsA).flatten :=
  orderly_prefix hs hm ha0 hb0 hra hrb hva hvb hu hk ho hg hok

/-- `A` sends two messages, a key update, another message, and a close-notify. -/
def closeSends : List Op :=
  advSends ++ [.protect .none .alert [.buf [1, 0]] (.buf (zeros 24))]

theorem closeSends_valid : ∀ op ∈ closeSends, ValidArgs op := by
  intro op ho
  simp only [closeSends, advSends, List.cons_append, List.nil_append, List.mem_cons,
    List.not_mem_nil, or_false] at ho
  rcases ho with rfl | rfl | rfl | rfl | rfl | rfl <;> trivial

/-- The events of `A`. -/
def closeEvents : List Event :=
  match run Lib.toy left closeSends with
  | .ok (_, evs) => evs
  | .error _ => []

theorem closeSends_orderly : Orderly [] closeSends closeEvents :=
  .send (by decide) (.send (by decide) (.update (by unfold CompletesUpdate; decide +kernel) rfl
    (.send (by decide) (.send (by decide) (.stop _)))))

theorem closeSends_good : GoodMessages (sentHandshakes closeSends closeEvents) := by
  have h : sentHandshakes closeSends closeEvents = [[24, 0, 0, 1, 0]] := by decide +kernel
  rw [h]
  refine ⟨by decide +kernel, fun pre hp => ?_⟩
  rcases List.prefix_cons_iff.1 hp with rfl | ⟨t, rfl, ht⟩
  · decide +kernel
  · rw [List.prefix_nil.1 ht]; decide +kernel

/-- The three messages and the key update have arrived. -/
example : ∃ ca cb evsB, run Lib.toy left closeSends = .ok (ca, closeEvents) ∧
    run Lib.toy right (recvs [(pos 0, [1, 23]), (pos 1, [2, 2, 23]), (pos 2, [24, 0, 0, 1, 0, 22]),
      (upd (pos 3), [3, 23])]) = .ok (cb, evsB) ∧ Mirrored leftArgs rightArgs ∧
    (∀ op ∈ closeSends, ValidArgs op) ∧ Unforged closeEvents evsB ∧
    KeysDistinct Lib.toy suite rightArgs closeEvents evsB ∧
    Orderly [] closeSends closeEvents ∧ GoodMessages (sentHandshakes closeSends closeEvents) ∧
    (∀ r, .opened r ∈ evsB → r.code = .ok) ∧ deliveredData evsB = [[1], [2, 2], [], [3]] := by
  refine ⟨_, _, _, rfl, rfl, ⟨rfl, rfl, rfl⟩, closeSends_valid, by decide +kernel,
    adv_keys _ _ (by decide +kernel) (by decide +kernel) (by decide +kernel),
    closeSends_orderly, closeSends_good, ?_, by decide +kernel⟩
  intro r hr
  simp only [List.mem_cons, Event.opened.injEq, List.not_mem_nil, or_false] at hr
  rcases hr with rfl | rfl | rfl | rfl <;> rfl

/-! ## C63: truncation is detected -/

/-- If moreover `A` sends no data after an alert, then when the first call of `B` that does not
succeed reports close-notify, `B` has delivered every byte of application data that `A` sent:
an attacker who cuts the stream short cannot make it look complete. -/
theorem C63_close_means_complete (L : Lib) (s : Spec.Suite) (a b : CreateArgs)
    (a0 ca b0 c cb : Conn) (opsA opsB : List Op) (op : Op) (evsA evs : List Event) (r : Result)
    (hs : Spec.suite b.ciphersuite = some s) (hm : Mirrored a b) (ha0 : Created L a a0)
    (hb0 : Created L b b0) (hra : run L a0 opsA = .ok (ca, evsA))
    (hrb : run L b0 opsB = .ok (c, evs)) (hst : step L c op = .ok (cb, .opened r))
    (hva : ∀ op ∈ opsA, ValidArgs op) (hvb : ∀ op ∈ opsB, ValidArgs op) (hv : ValidArgs op)
    (hu : Unforged evsA (evs ++ [.opened r])) (hk : KeysDistinct L s b evsA (evs ++ [.opened r]))
    (ho : Orderly [] opsA evsA) (hg : GoodMessages (sentHandshakes opsA evsA))
    (hcl : ClosesLast opsA) (hok : ∀ r, .opened r ∈ evs → r.code = .ok)
    (hc : r.code = .alertCloseNotify) :
    (deliveredData evs).flatten = (sentData opsA evsA).flatten :=
  close_complete hs hm ha0 hb0 hra hrb hst hva hvb hv hu hk ho hg hcl hok hc

theorem closeSends_last : ClosesLast closeSends := by
  intro f pt rec h
  exact absurd h List.not_mem_nil

/-- As above, and the close-notify arrives too. -/
example : ∃ ca c cb evs r, run Lib.toy left closeSends = .ok (ca, closeEvents) ∧
    run Lib.toy right (recvs [(pos 0, [1, 23]), (pos 1, [2, 2, 23]), (pos 2, [24, 0, 0, 1, 0, 22]),
      (upd (pos 3), [3, 23])]) = .ok (c, evs) ∧
    step Lib.toy c (recv ⟨suite, (upd (pos 3)).secret, 1⟩ [1, 0, 21]) = .ok (cb, .opened r) ∧
    Unforged closeEvents (evs ++ [.opened r]) ∧
    KeysDistinct Lib.toy suite rightArgs closeEvents (evs ++ [.opened r]) ∧
    ClosesLast closeSends ∧ r.code = .alertCloseNotify ∧
    (deliveredData evs).flatten = [1, 2, 2, 3] := by
  refine ⟨_, _, _, _, _, rfl, rfl, rfl, by decide +kernel,
    adv_keys _ _ (by decide +kernel) (by decide +kernel) (by decide +kernel), closeSends_last, rfl,
    by decide +kernel⟩

end S2A.Record

namespace S2A.Frame
open Spec (AllocOk Unforged KeysDistinct Mirrored ReceivesOk receivedBytes receivedPieces
  ValidFrameArgs OneRecord sentData deliveredData sentHandshakes Orderly GoodMessages)
open Demo

set_option maxRecDepth 100000

/-- The peer is any connection `A` with matching keys and makes any calls; the network gives
frame protector `B` any bytes in any pieces, and calls may fail.  If no tag was forged, the
non-empty buffers that successful `Unprotect` calls of `B` hand out are a subsequence of the
application data sent by successful `Protect` calls of `A`. -/
theorem C61_frame_subsequence (L : Lib) (A : Allocator) (hA : AllocOk A) (su : Spec.Suite)
    (a : Record.CreateArgs) (p : Options) (a0 ca : Record.Conn) (b0 sb : State)
    (opsA : List Record.Op) (opsB : List Op) (evsA : List Record.Event) (resB : List Event)
    (hs : Spec.suite p.crypter.ciphersuite = some su) (hm : Mirrored a p.crypter)
    (ha0 : Record.Created L a a0) (hb0 : Created L p b0)
    (hra : Record.run L a0 opsA = .ok (ca, evsA)) (hrb : run L A b0 opsB = .ok (sb, resB))
    (hva : ∀ op ∈ opsA, Spec.ValidArgs op) (hvb : ∀ op ∈ opsB, ValidFrameArgs op)
    (hu : Unforged evsA sb.evs) (hk : KeysDistinct L su p.crypter evsA sb.evs) :
    ((receivedPieces opsB resB).filter (· ≠ [])).Sublist (sentData opsA evsA) := by
  obtain ⟨_, _, _, cb, _, _, _, eb⟩ := created_inv hb0
  obtain ⟨rb, vb, b1, _, _⟩ := run_sim hA hvb hrb
  obtain ⟨new, n1, n2, _⟩ := run_pieces hA hvb hrb
  have heb : sb.evs = vb := by rw [b1.evs, eb]; rfl
  have hn : new = vb := by rw [← heb, n1, eb]; rfl
  rw [heb] at hu hk
  rw [hn] at n2
  exact (n2.filter _).trans (Record.delivered_subsequence (a := a) (b := p.args) (s := su) hs
    ⟨hm.suite, hm.secret, hm.seq⟩ ha0 cb hra b1.run hva (fun op h => (b1.valid op h).1) hu
    ⟨hk.epoch, hk.direction⟩)

/-- If moreover the peer is orderly (it may send tickets, alerts and key updates) and no
`Unprotect` call of `B` has failed so far, then the bytes `B` has delivered are a prefix of the
bytes the peer has sent. -/
theorem C62_frame_orderly_prefix (L : Lib) (A : Allocator) (hA : AllocOk A) (su : Spec.Suite)
    (a : Record.CreateArgs) (p : Options) (a0 ca : Record.Conn) (b0 sb : State)
    (opsA : List Record.Op) (opsB : List Op) (evsA : List Record.Event) (resB : List Event)
    (hs : Spec.suite p.crypter.ciphersuite = some su) (hm : Mirrored a p.crypter)
    (ha0 : Record.Created L a a0) (hb0 : Created L p b0)
    (hra : Record.run L a0 opsA = .ok (ca, evsA)) (hrb : run L A b0 opsB = .ok (sb, resB))
    (hva : ∀ op ∈ opsA, Spec.ValidArgs op) (hvb : ∀ op ∈ opsB, ValidFrameArgs op)
    (hu : Unforged evsA sb.evs) (hk : KeysDistinct L su p.crypter evsA sb.evs)
    (ho : Orderly [] opsA evsA) (hg : GoodMessages (sentHandshakes opsA evsA))
    (hrecv : ReceivesOk opsB resB) :
    receivedBytes opsB resB <+: (sentData opsA evsA).flatten := by
  obtain ⟨_, _, _, cb, _, _, _, eb⟩ := created_inv hb0
  obtain ⟨rb, vb, b1, _, b3⟩ := run_sim hA hvb hrb
  obtain ⟨b3, b4⟩ := b3 hrecv
  have heb : sb.evs = vb := by rw [b1.evs, eb]; rfl
  rw [heb] at hu hk
  rw [← b3]
  exact Record.orderly_prefix (a := a) (b := p.args) (s := su) hs ⟨hm.suite, hm.secret, hm.seq⟩
    ha0 cb hra b1.run hva (fun op h => (b1.valid op h).1) hu ⟨hk.epoch, hk.direction⟩ ho hg b4

/-- Everything up to the message after the key update has arrived, in one call. -/
def frameReceives : List Op :=
  [.unprotect (fun _ => .none) [.buf (record 0 [1, 23] ++ record 1 [2, 2, 23] ++
    record 2 [24, 0, 0, 1, 0, 22] ++
    Record.Demo.recordAt (Record.Demo.upd (Record.Demo.pos 3)) [3, 23])]]

example : ∃ ca sb resB, Record.run Lib.toy Record.Demo.left Record.closeSends =
      .ok (ca, Record.closeEvents) ∧
    run Lib.toy alloc rightS frameReceives = .ok (sb, resB) ∧
    Mirrored Record.Demo.leftArgs rightO.crypter ∧ Unforged Record.closeEvents sb.evs ∧
    KeysDistinct Lib.toy Record.Demo.suite rightO.crypter Record.closeEvents sb.evs ∧
    ReceivesOk frameReceives resB ∧ receivedPieces frameReceives resB = [[1], [2, 2], [], [3]] ∧
    receivedBytes frameReceives resB = [1, 2, 2, 3] := by
  refine ⟨_, _, _, rfl, rfl, ⟨rfl, rfl, rfl⟩, by decide +kernel,
    Record.adv_keys _ _ (by decide +kernel) (by decide +kernel) (by decide +kernel), ⟨rfl, trivial⟩,
    by decide +kernel, by decide +kernel⟩

/-! ## C64: a failing call does not lose data -/

/-- Whatever happens, if every allocating `Unprotect` call is given at most one complete record,
then the user has been handed exactly the data of the records that were accepted, although
calls may have failed.

Missing from the full property: if a call is given several records and a later one fails, what
the earlier ones carried is lost, see `C64_counterexample`. -/
theorem C64_nothing_lost_partial (L : Lib) (A : Allocator) (hA : AllocOk A) (p : Options)
    (s0 s : State) (ops : List Op) (res : List Event) (h0 : Created L p s0)
    (hr : run L A s0 ops = .ok (s, res)) (hv : ∀ op ∈ ops, ValidFrameArgs op)
    (hone : ∀ op ∈ ops, OneRecord op) :
    receivedPieces ops res = deliveredData s.evs := by
  obtain ⟨_, _, _, _, _, _, _, e⟩ := created_inv h0
  obtain ⟨new, n1, _, n3⟩ := run_pieces hA hv hr
  rw [n3 hone, n1, e]
  rfl

/-- A message and a close-notify arrive in one call: it fails and returns nothing; giving the
message again fails too.  In two calls the message is delivered. -/
theorem C64_counterexample :
    ∃ (L : Lib) (A : Allocator) (o : Options) (s s1 s2 t1 : State) (r1 r2 : Result),
      AllocOk A ∧ Created L o s ∧
      unprotect L A (fun _ => .none) s [.buf (record 0 [1, 2, 23] ++ record 1 [1, 0, 21])] =
        .ok (s1, r1) ∧ r1 = ⟨.internal, []⟩ ∧ deliveredData s1.evs = [[1, 2]] ∧
      unprotect L A (fun _ => .none) s1 [.buf (record 0 [1, 2, 23])] = .ok (s2, r2) ∧
      r2 = ⟨.internal, []⟩ ∧
      unprotect L A (fun _ => .none) s [.buf (record 0 [1, 2, 23])] =
        .ok (t1, ⟨.ok, [(.heap 0, [1, 2])]⟩) := by
  refine ⟨Lib.toy, alloc, rightO, rightS, _, _, _, _, _, alloc_ok, right_created, rfl,
    by decide +kernel, by decide +kernel, rfl, by decide +kernel, rfl⟩

/-- Witness for the partial theorem: a message, garbage, and a message. -/
example : ∃ s res, run Lib.toy alloc rightS
      [.unprotect (fun _ => .none) [.buf (record 0 [1, 2, 23])],
       .unprotect (fun _ => .none) [.buf (zeros 30)],
       .unprotect (fun _ => .none) [.buf (record 1 [3, 23])]] = .ok (s, res) ∧
    deliveredData s.evs = [[1, 2], [3]] ∧
    OneRecord (.unprotect (fun _ => .none) [.buf (record 0 [1, 2, 23])]) := by
  refine ⟨_, _, rfl, by decide +kernel, ?_, ?_⟩
  · intro v hv
    rw [List.mem_singleton.1 hv]
    exact ⟨_, rfl, by decide +kernel⟩
  · intro hd payload rest h
    obtain ⟨hb, hw⟩ := firstRecord_some h
    have hl : hd.length = 5 := by rw [hw.header]; rfl
    have : (flat [.buf (record 0 [1, 2, 23])]).length = 24 := by decide +kernel
    rw [hb] at this
    simp at this
    omega

end S2A.Frame
