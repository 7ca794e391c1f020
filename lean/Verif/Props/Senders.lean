import Verif.Lemmas.Senders
import Verif.Props.Threads
/-
Several threads send over one connection.
-/
namespace S2A.Frame
open Spec (AllocOk NonEmptyBufs Paired Exclusive AllIdle Precedes Earlier Sent transmits protects
  SendsMemory delivered Succeeded unprotectsInto)
open Demo

set_option maxRecDepth 100000

/-! ## C75: messages of concurrent senders arrive whole -/

/-- Threads protect messages on one frame protector, in any schedule, possibly while others
unprotect; all their calls have returned, and the calls of `Protect` have succeeded.  Then there is an
order of all the messages, in which the messages of each thread are in the order in which the thread
protected them, and a message protected before another began to be comes before it; and if the
protected bytes are given to the peer in this order, a message at a time, each in any non-empty
pieces, the peer delivers the messages, whole and in this order. -/
theorem C75_concurrent_senders {T : Type} [DecidableEq T] (L : Lib) (A A' : Allocator)
    (hA : AllocOk A) (hA' : AllocOk A') (o p : Options) (s t : State) (hs : Created L o s)
    (ht : Created L p t) (hp : Paired o p) (calls : T → List Op) (sched : List T) (c : Threads T)
    (hmem : ∀ t, ∀ op ∈ calls t, SendsMemory op)
    (hr : (Threads.init s).run L A calls sched = .ok c)
    (hx : Exclusive L A calls (Threads.init s) sched) (hi : AllIdle c)
    (hok : ∀ t n op ev, (calls t)[n]? = some op → protects op = true →
      .returned (t, n) ev ∈ c.log → Succeeded ev) :
    ∃ sent : List (Sent T),
      (sent.map (·.call)).Nodup ∧
      (∀ t n op ev, (calls t)[n]? = some op → protects op = true → .returned (t, n) ev ∈ c.log →
        (t, n) ∈ sent.map (·.call)) ∧
      (∀ x ∈ sent, ∃ op ev, (calls x.call.1)[x.call.2]? = some op ∧ .returned x.call ev ∈ c.log ∧
        transmits op ev = some (x.message, x.buffer)) ∧
      (∀ t m n, m < n → (t, m) ∈ sent.map (·.call) → (t, n) ∈ sent.map (·.call) →
        Earlier (sent.map (·.call)) (t, m) (t, n)) ∧
      (∀ a b, Precedes c.log a b → a ∈ sent.map (·.call) → b ∈ sent.map (·.call) →
        Earlier (sent.map (·.call)) a b) ∧
      ∀ ws : List (List Iovec), (∀ w ∈ ws, NonEmptyBufs w) → ws.map flat = sent.map (·.buffer) →
        ∃ t' evs, run L A' t (ws.map (.unprotect fun _ => .none)) = .ok (t', evs) ∧
          evs.map delivered = sent.map (fun x => some x.message) := by
  obtain ⟨order, hlin⟩ := C66_linearizable L A calls s sched c hr hx
  obtain ⟨ops, renumber, s', evs, h1, _, h2, h3, _⟩ := hlin.sequential
  have hlog := (LogInv.init s).run hr
  obtain ⟨hlen, htr⟩ := run_transmits h2
  obtain ⟨q1, q2, q3, q4⟩ := sentBy_spec h1 hlen htr
  have hzip : ∀ x ev, (x, ev) ∈ order.zip evs → .returned x (Spec.anonymous ev) ∈ c.log := by
    intro x ev hz
    obtain ⟨ev', hev⟩ := hlog.idle hi (hlin.began x (List.of_mem_zip hz).1)
    have hz' : (x, Spec.anonymous ev) ∈ order.zip (evs.map Spec.anonymous) := by
      rw [List.zip_map_right]
      exact List.mem_map.2 ⟨_, hz, rfl⟩
    rw [zip_functional hlin.nodup hz' (h3 x ev' hev)]
    exact hev
  have hsent : ∀ x, x ∈ (sentBy order ops evs).map (·.call) ↔
      x ∈ order ∧ sendsCall calls x = true := by
    intro x; rw [q1, List.mem_filter]
  have hin : ∀ x, (∃ ev, .returned x ev ∈ c.log) → x ∈ order := fun x ⟨ev, hev⟩ =>
    (List.of_mem_zip (h3 x ev hev)).1
  have hreal : ∀ a b, Precedes c.log a b → a ∈ (sentBy order ops evs).map (·.call) →
      b ∈ (sentBy order ops evs).map (·.call) →
      Earlier ((sentBy order ops evs).map (·.call)) a b := by
    intro a b hab ha hb
    rw [hsent] at ha hb
    rw [q1]
    exact earlier_filter (hlin.realTime a b hab hb.1) ha.2 hb.2
  refine ⟨sentBy order ops evs, ?_, ?_, ?_, ?_, hreal, ?_⟩
  · rw [q1]; exact hlin.nodup.filter _
  · intro t n op ev hop hpr hev
    rw [hsent]
    exact ⟨hin _ ⟨ev, hev⟩, by simp [sendsCall, hop, hpr]⟩
  · intro x hx
    obtain ⟨op, ev, j1, j2, j3⟩ := q3 x hx
    exact ⟨op, _, j1, hzip _ _ j3, by rw [transmits_anonymous]; exact j2⟩
  · intro t m n hmn hm hn
    exact hreal _ _ (hlog.inOrder t m n hmn (hlin.began _ ((hsent _).1 hn).1)) hm hn
  · intro ws hws hfl
    have hstart := SessionOk.start hs ht hp
    obtain ⟨a, ha⟩ := hstart.reach false
    obtain ⟨d, d', l1, l2, l3⟩ := hstart.link false
    cases l3
    obtain ⟨d2, _, hch⟩ := run_chain (A := fun i => A (renumber i)) (fun i n => hA (renumber i) n)
      ha l1 h2 (by
        intro op hop
        have : some op ∈ order.map (fun x => (calls x.1)[x.2]?) := by
          rw [h1]; exact List.mem_map.2 ⟨op, hop, rfl⟩
        obtain ⟨x, _, hx⟩ := List.mem_map.1 this
        exact hmem x.1 op (List.mem_of_getElem? hx)) (by
        intro x hx hpr
        obtain ⟨y, j1, j2⟩ := q4 x hx
        exact (succeeded_anonymous _).1 (hok y.1 y.2 x.1 _ j2 hpr (hzip _ _ j1)))
    rw [← q2] at hch
    obtain ⟨t', evs', e1, e2⟩ := hch.deliver hA' (s := t) (ws := ws) hws (by
      rw [hfl, List.map_map]; rfl) l2 (hstart.ready true)
    refine ⟨t', evs', e1, ?_⟩
    rw [e2, List.map_map]; rfl

/-- Two threads, each of which protects a message. -/
def senderCalls : Bool → List Op
  | false => [.protect (fun _ => .none) [.buf [1]]]
  | true => [.protect (fun _ => .none) [.buf [2, 2]]]

/-- The first thread protects its message, but the second is the first to return. -/
def senderSched : List Bool :=
  List.replicate 15 false ++ List.replicate 16 true ++ List.replicate 1 false

/-- Witness: the hypotheses hold of two threads whose calls overlap. -/
example : ∃ c : Threads Bool,
    (Threads.init leftS).run Lib.toy alloc senderCalls senderSched = .ok c ∧
    (∀ t, ∀ op ∈ senderCalls t, SendsMemory op) ∧
    Exclusive Lib.toy alloc senderCalls (Threads.init leftS) senderSched ∧ AllIdle c ∧
    (results c.log).map (fun x => (x.1, summary x.2)) =
      [((true, 0), (.ok, [24])), ((false, 0), (.ok, [23]))] := by
  refine ⟨_, rfl, ?_, ?_, ?_, by decide +kernel⟩
  · intro t op hop
    cases t <;> (simp only [senderCalls, List.mem_singleton] at hop; subst hop; exact wf1 _)
  · intro pre c' _ _ t t' n n' p p' op op' _ _ _ hop _ hinto
    have := List.mem_of_getElem? hop
    cases t <;>
      (simp only [senderCalls, List.mem_singleton] at this; subst this; cases hinto)
  · intro t
    cases t <;> exact ⟨1, rfl⟩

/-- The order in which the calls return is in general not this order: two threads each protect a
message, both calls succeed; given the bytes in the order in which the calls returned, the peer
rejects both messages, and in the other order it delivers both. -/
theorem C75_return_order_fails : ∃ (c : Threads Bool) (id1 id2 : BufId) (w1 w2 : Bytes),
    (Threads.init leftS).run Lib.toy alloc senderCalls senderSched = .ok c ∧
    c.log = [.invoked (false, 0), .invoked (true, 0), .returned (true, 0) (.result ⟨.ok, [(id2, w2)]⟩),
      .returned (false, 0) (.result ⟨.ok, [(id1, w1)]⟩)] ∧
    (∃ t' evs, run Lib.toy alloc rightS [.unprotect (fun _ => .none) [.buf w2],
      .unprotect (fun _ => .none) [.buf w1]] = .ok (t', evs) ∧ evs.map delivered = [none, none]) ∧
    (∃ t' evs, run Lib.toy alloc rightS [.unprotect (fun _ => .none) [.buf w1],
      .unprotect (fun _ => .none) [.buf w2]] = .ok (t', evs) ∧
      evs.map delivered = [some [1], some [2, 2]]) :=
  ⟨_, .caller, .caller, record 0 [1, 23], record 1 [2, 2, 23], rfl, by decide +kernel,
    ⟨_, _, rfl, by decide +kernel⟩, ⟨_, _, rfl, by decide +kernel⟩⟩

end S2A.Frame
