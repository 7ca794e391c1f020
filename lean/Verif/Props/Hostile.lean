import Verif.Props.Adversary
import Verif.Props.Orderly
import Verif.Props.Senders
import Verif.Lemmas.Hostile
/-
C100: threads at both ends, and a network that does what it wants.
-/
namespace S2A.Frame
open Spec (AllocOk Unforged KeysDistinct Mirrored ValidFrameArgs AllIdle Exclusive CallOrder
  protects unprotects message bytesHandedOut handedPieces AllSucceeded fragments)
open Demo

set_option maxRecDepth 100000

/-! ## C100: threads at both ends of a hostile network -/

/-- Any number of threads use each of two frame protectors with matching keys, in any schedules;
the network gives `B` any bytes, in any pieces.  If no tag was forged, no `Protect` call of `A` and no
`Unprotect` call of `B` has failed so far, and no call is in progress, then the messages given to
`A` and what the `Unprotect` calls of `B` handed out can be put in orders that agree with the orders in
which the calls were made, such that what `B` delivered is a prefix of what was sent. -/
theorem C100_threads_and_network {T T' : Type} [DecidableEq T] [DecidableEq T'] (L : Lib)
    (A A' : Allocator) (hA : AllocOk A) (hA' : AllocOk A') (su : Spec.Suite) (o p : Options)
    (a0 b0 : State) (calls : T → List Op) (calls' : T' → List Op) (sched : List T)
    (sched' : List T') (c : Threads T) (c' : Threads T')
    (hs : Spec.suite p.crypter.ciphersuite = some su) (hm : Mirrored o.crypter p.crypter)
    (ha0 : Created L o a0) (hb0 : Created L p b0)
    (hra : (Threads.init a0).run L A calls sched = .ok c)
    (hrb : (Threads.init b0).run L A' calls' sched' = .ok c')
    (hxa : Exclusive L A calls (Threads.init a0) sched)
    (hxb : Exclusive L A' calls' (Threads.init b0) sched') (hia : AllIdle c) (hib : AllIdle c')
    (hva : ∀ t, ∀ op ∈ calls t, ValidFrameArgs op) (hvb : ∀ t, ∀ op ∈ calls' t, ValidFrameArgs op)
    (hu : Unforged c.shared.evs c'.shared.evs)
    (hk : KeysDistinct L su p.crypter c.shared.evs c'.shared.evs)
    (hsend : AllSucceeded calls c.log protects) (hrecv : AllSucceeded calls' c'.log unprotects) :
    ∃ (sent : List ((T × Nat) × Bytes)) (got : List ((T' × Nat) × Bytes)),
      CallOrder calls c.log protects (sent.map (·.1)) ∧
      (∀ x ∈ sent, ∃ op, (calls x.1.1)[x.1.2]? = some op ∧ message op = x.2) ∧
      CallOrder calls' c'.log unprotects (got.map (·.1)) ∧
      (∀ x ∈ got, ∃ ev, .returned x.1 ev ∈ c'.log ∧ bytesHandedOut ev = x.2) ∧
      (got.map (·.2)).flatten <+: (sent.map (·.2)).flatten := by
  obtain ⟨order, hlin⟩ := C66_linearizable L A calls a0 sched c hra hxa
  obtain ⟨order', hlin'⟩ := C66_linearizable L A' calls' b0 sched' c' hrb hxb
  obtain ⟨ops, ren, sa, evs, g1, _, g2, g3, g4⟩ := hlin.sequential
  obtain ⟨ops', ren', sb, evs', k1, _, k2, k3, k4⟩ := hlin'.sequential
  obtain ⟨_, g5, g6⟩ := g4 hia
  obtain ⟨_, k5, k6⟩ := k4 hib
  obtain ⟨p1, p2, p3⟩ := pick_order protects (fun op _ => message op) (fun _ _ => rfl) hlin
    ((LogInv.init a0).run hra) hia g1 g2 g3
  obtain ⟨q1, q2, q3⟩ := pick_order unprotects (fun _ ev => bytesHandedOut ev)
    (fun _ ev => bytesHandedOut_anonymous ev) hlin' ((LogInv.init b0).run hrb) hib k1 k2 k3
  have hpre := C62_frame_prefix L (fun i => A (ren i)) (fun i => A' (ren' i))
    (fun i n => hA (ren i) n) (fun i n => hA' (ren' i) n) su o p a0 sa b0 sb ops ops' evs evs' hs hm
    ha0 hb0 g2 k2 (fun op h => by obtain ⟨t, ht⟩ := made_by g1 h; exact hva t op ht)
    (fun op h => by obtain ⟨t, ht⟩ := made_by k1 h; exact hvb t op ht)
    (unforged_same ⟨g5, g6⟩ ⟨k5, k6⟩ hu) (keysDistinct_same ⟨g5, g6⟩ ⟨k5, k6⟩ hk)
    (sendsOk_of fun x hx hp => by
      obtain ⟨y, y1, y2⟩ := p3 x hx
      exact (succeeded_anonymous _).1 (hsend y.1 y.2 x.1 _ y1 hp y2))
    (receivesOk_of fun x hx hp => by
      obtain ⟨y, y1, y2⟩ := q3 x hx
      exact (succeeded_anonymous _).1 (hrecv y.1 y.2 x.1 _ y1 hp y2))
  have e1 : order.length = ops.length := by simpa using congrArg List.length g1
  have e2 : order'.length = ops'.length := by simpa using congrArg List.length k1
  refine ⟨_, _, p1, ?_, q1, ?_, ?_⟩
  · intro x hx
    obtain ⟨op, _, r1, _, r3⟩ := p2 x hx
    exact ⟨op, r1, r3⟩
  · intro x hx
    obtain ⟨_, ev, _, r2, r3⟩ := q2 x hx
    exact ⟨ev, r2, r3⟩
  · rw [pick_sent e1 (run_transmits g2).1, pick_received e2 k2]
    exact hpre

/-- Two frame protectors with matching keys; calls may fail, and the network gives `B` any bytes in
any pieces.  If no tag was forged, the non-empty buffers that successful `Unprotect` calls of `B` hand
out are a subsequence of the fragments of the messages given to `Protect` calls of `A`. -/
theorem C61_frame_fragments (L : Lib) (A A' : Allocator) (hA : AllocOk A) (hA' : AllocOk A')
    (su : Spec.Suite) (o p : Options) (a0 sa b0 sb : State) (opsA opsB : List Op)
    (resA resB : List Event) (hs : Spec.suite p.crypter.ciphersuite = some su)
    (hm : Mirrored o.crypter p.crypter) (ha0 : Created L o a0) (hb0 : Created L p b0)
    (hra : run L A a0 opsA = .ok (sa, resA)) (hrb : run L A' b0 opsB = .ok (sb, resB))
    (hva : ∀ op ∈ opsA, ValidFrameArgs op) (hvb : ∀ op ∈ opsB, ValidFrameArgs op)
    (hu : Unforged sa.evs sb.evs) (hk : KeysDistinct L su p.crypter sa.evs sb.evs) :
    ((Spec.receivedPieces opsB resB).filter (· ≠ [])).Sublist
      ((opsA.filter protects).flatMap fun op => fragments (message op)) := by
  obtain ⟨_, _, _, ca, _, _, _, ea⟩ := created_inv ha0
  obtain ⟨rops, revs, h1, h2⟩ := run_fragments hA hva hra
  have hea : sa.evs = revs := by rw [h1.evs, ea]; rfl
  rw [hea] at hu hk
  have := C61_frame_subsequence L A' hA' su o.args p a0.conn sa.conn b0 sb rops opsB revs resB hs
    ⟨hm.suite, hm.secret, hm.seq⟩ ca hb0 h1.run hrb (fun op h => (h1.valid op h).1) hvb hu hk
  refine this.trans ?_
  rw [given_filter]
  exact h2

/-- The same, with threads at both ends, and whatever calls fail: the messages given to `A` and what
successful `Unprotect` calls of `B` handed out can be put in orders that agree with the orders in
which the calls were made, such that the non-empty buffers handed out are a subsequence of the
fragments of the messages. -/
theorem C100_threads_and_failures {T T' : Type} [DecidableEq T] [DecidableEq T'] (L : Lib)
    (A A' : Allocator) (hA : AllocOk A) (hA' : AllocOk A') (su : Spec.Suite) (o p : Options)
    (a0 b0 : State) (calls : T → List Op) (calls' : T' → List Op) (sched : List T)
    (sched' : List T') (c : Threads T) (c' : Threads T')
    (hs : Spec.suite p.crypter.ciphersuite = some su) (hm : Mirrored o.crypter p.crypter)
    (ha0 : Created L o a0) (hb0 : Created L p b0)
    (hra : (Threads.init a0).run L A calls sched = .ok c)
    (hrb : (Threads.init b0).run L A' calls' sched' = .ok c')
    (hxa : Exclusive L A calls (Threads.init a0) sched)
    (hxb : Exclusive L A' calls' (Threads.init b0) sched') (hia : AllIdle c) (hib : AllIdle c')
    (hva : ∀ t, ∀ op ∈ calls t, ValidFrameArgs op) (hvb : ∀ t, ∀ op ∈ calls' t, ValidFrameArgs op)
    (hu : Unforged c.shared.evs c'.shared.evs)
    (hk : KeysDistinct L su p.crypter c.shared.evs c'.shared.evs) :
    ∃ (sent : List ((T × Nat) × Bytes)) (got : List ((T' × Nat) × List Bytes)),
      CallOrder calls c.log protects (sent.map (·.1)) ∧
      (∀ x ∈ sent, ∃ op, (calls x.1.1)[x.1.2]? = some op ∧ message op = x.2) ∧
      CallOrder calls' c'.log unprotects (got.map (·.1)) ∧
      (∀ x ∈ got, ∃ ev, .returned x.1 ev ∈ c'.log ∧ handedPieces ev = x.2) ∧
      ((got.flatMap (·.2)).filter (· ≠ [])).Sublist (sent.flatMap fun x => fragments x.2) := by
  obtain ⟨order, hlin⟩ := C66_linearizable L A calls a0 sched c hra hxa
  obtain ⟨order', hlin'⟩ := C66_linearizable L A' calls' b0 sched' c' hrb hxb
  obtain ⟨ops, ren, sa, evs, g1, _, g2, g3, g4⟩ := hlin.sequential
  obtain ⟨ops', ren', sb, evs', k1, _, k2, k3, k4⟩ := hlin'.sequential
  obtain ⟨_, g5, g6⟩ := g4 hia
  obtain ⟨_, k5, k6⟩ := k4 hib
  obtain ⟨p1, p2, _⟩ := pick_order protects (fun op _ => message op) (fun _ _ => rfl) hlin
    ((LogInv.init a0).run hra) hia g1 g2 g3
  obtain ⟨q1, q2, _⟩ := pick_order unprotects (fun _ ev => handedPieces ev)
    (fun _ ev => handedPieces_anonymous ev) hlin' ((LogInv.init b0).run hrb) hib k1 k2 k3
  have hsub := C61_frame_fragments L (fun i => A (ren i)) (fun i => A' (ren' i))
    (fun i n => hA (ren i) n) (fun i n => hA' (ren' i) n) su o p a0 sa b0 sb ops ops' evs evs' hs hm
    ha0 hb0 g2 k2 (fun op h => by obtain ⟨t, ht⟩ := made_by g1 h; exact hva t op ht)
    (fun op h => by obtain ⟨t, ht⟩ := made_by k1 h; exact hvb t op ht)
    (unforged_same ⟨g5, g6⟩ ⟨k5, k6⟩ hu) (keysDistinct_same ⟨g5, g6⟩ ⟨k5, k6⟩ hk)
  have e1 : order.length = ops.length := by simpa using congrArg List.length g1
  have e2 : order'.length = ops'.length := by simpa using congrArg List.length k1
  refine ⟨_, _, p1, ?_, q1, ?_, ?_⟩
  · intro x hx
    obtain ⟨op, _, r1, _, r3⟩ := p2 x hx
    exact ⟨op, r1, r3⟩
  · intro x hx
    obtain ⟨_, ev, _, r2, r3⟩ := q2 x hx
    exact ⟨ev, r2, r3⟩
  · rw [pick_pieces e2 k2, pick_fragments e1 (run_transmits g2).1, ← given_filter]
    exact hsub

/-- Two threads that unprotect, each a record of the run of `senderCalls`. -/
def hearers : Bool → List Op
  | false => [.unprotect (fun _ => .none) [.buf (record 0 [1, 23])]]
  | true => [.unprotect (fun _ => .none) [.buf (record 1 [2, 2, 23])]]

/-- The second thread begins while the first is at work. -/
def hearSched : List Bool :=
  List.replicate 4 false ++ List.replicate 4 true ++ List.replicate 40 false ++
    List.replicate 40 true

/-- All calls have succeeded. -/
theorem all_ok {c : Threads Bool} (h : ∀ x ∈ results c.log, Spec.Succeeded x.2) {t : Bool} {n : Nat}
    {ev : Event} (hev : .returned (t, n) ev ∈ c.log) : Spec.Succeeded ev :=
  h ((t, n), ev) (List.mem_filterMap.2 ⟨_, hev, rfl⟩)

/-- Witness: two threads send, two threads receive, all hypotheses hold, and all has arrived. -/
example : ∃ c c' : Threads Bool,
    (Threads.init leftS).run Lib.toy alloc senderCalls senderSched = .ok c ∧
    (Threads.init rightS).run Lib.toy alloc hearers hearSched = .ok c' ∧
    Exclusive Lib.toy alloc hearers (Threads.init rightS) hearSched ∧ AllIdle c ∧ AllIdle c' ∧
    Unforged c.shared.evs c'.shared.evs ∧
    KeysDistinct Lib.toy Record.Demo.suite rightO.crypter c.shared.evs c'.shared.evs ∧
    AllSucceeded senderCalls c.log protects ∧ AllSucceeded hearers c'.log unprotects ∧
    (results c'.log).map (fun x => (x.1, bytesHandedOut x.2)) = [((false, 0), [1]), ((true, 0), [2, 2])] := by
  refine ⟨_, _, rfl, rfl, ?_, ?_, ?_, by decide +kernel, ?_, ?_, ?_, by decide +kernel⟩
  · intro pre c' _ _ t t' n n' p p' op op' _ _ _ hop _ hinto
    have := List.mem_of_getElem? hop
    cases t <;> (simp only [hearers, List.mem_singleton] at this; subst this; cases hinto)
  · intro t
    cases t <;> exact ⟨1, rfl⟩
  · intro t
    cases t <;> exact ⟨1, rfl⟩
  · exact ⟨by decide +kernel, by decide +kernel⟩
  · intro t n op ev _ _ hev
    exact all_ok (c := (⟨_, _, _, _, _⟩ : Threads Bool)) (by decide +kernel) hev
  · intro t n op ev _ _ hev
    exact all_ok (c := (⟨_, _, _, _, _⟩ : Threads Bool)) (by decide +kernel) hev

/-- The same threads, but the network has put the second record in the place of the first as well. -/
def misled : Bool → List Op
  | false => [.unprotect (fun _ => .none) [.buf (record 1 [2, 2, 23])]]
  | true => [.unprotect (fun _ => .none) [.buf (record 1 [2, 2, 23])]]

/-- Witness of `C100_threads_and_failures`: one call fails, the other delivers the second message. -/
example : ∃ c c' : Threads Bool,
    (Threads.init leftS).run Lib.toy alloc senderCalls senderSched = .ok c ∧
    (Threads.init rightS).run Lib.toy alloc misled hearSched = .ok c' ∧
    Exclusive Lib.toy alloc misled (Threads.init rightS) hearSched ∧ AllIdle c ∧ AllIdle c' ∧
    Unforged c.shared.evs c'.shared.evs ∧
    KeysDistinct Lib.toy Record.Demo.suite rightO.crypter c.shared.evs c'.shared.evs ∧
    (results c'.log).map (fun x => (x.1, handedPieces x.2)) =
      [((false, 0), []), ((true, 0), [[2, 2]])] := by
  refine ⟨_, _, rfl, rfl, ?_, ?_, ?_, by decide +kernel, ?_, by decide +kernel⟩
  · intro pre c' _ _ t t' n n' p p' op op' _ _ _ hop _ hinto
    have := List.mem_of_getElem? hop
    cases t <;> (simp only [misled, List.mem_singleton] at this; subst this; cases hinto)
  · intro t
    cases t <;> exact ⟨1, rfl⟩
  · intro t
    cases t <;> exact ⟨1, rfl⟩
  · exact ⟨by decide +kernel, by decide +kernel⟩

end S2A.Frame
