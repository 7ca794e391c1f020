import Verif.Lemmas.Threads
import Verif.Lemmas.ThreadsProgress
import Verif.Props.Crypter
import Verif.Props.Frame
/-
Several threads that use one frame protector.
-/
namespace S2A.Frame
open Spec (Linearizes Exclusive FaultsSequentially AllIdle Precedes anonymous unprotects
  unprotectsInto)
open Demo

set_option maxRecDepth 100000

/-! ## C66: concurrent calls behave as if made one after the other -/

/-- Any number of threads make any calls on one frame protector, in any schedule, with any failures.
If at no time a thread is inside the non-allocating `Unprotect` while another is inside an
`Unprotect` (the documentation forbids all overlapping calls of `Unprotect`, and of `Protect`),
then there is an order of the calls that explains all results. -/
theorem C66_linearizable {T : Type} [DecidableEq T] (L : Lib) (A : Allocator)
    (calls : T → List Op) (s0 : State) (sched : List T) (c : Threads T)
    (hr : (Threads.init s0).run L A calls sched = .ok c)
    (hx : Exclusive L A calls (Threads.init s0) sched) :
    ∃ order, Linearizes L A calls s0 c order := by
  obtain ⟨lin, ops, idx, sL, pend, h⟩ := (inv_init L A calls s0).run hx hr
  exact ⟨_, h.linearizes⟩

/-- The calls of the witness: two threads that protect, one of which also unprotects. -/
def demoCalls : Bool → List Op
  | false => [.protect (fun _ => .none) [.buf [1]],
      .unprotect (fun _ => .none) [.buf (record 0 [1, 23] ++ record 1 [2, 23])]]
  | true => [.protect (fun _ => .none) [.buf [2, 2]], .protectInto (fun _ => .none) [.buf [3]]
      (.buf (zeros 23))]

/-- The threads take turns. -/
def demoSched : List Bool := (List.replicate 52 [false, true]).flatten

/-- The results in a log. -/
def results {T : Type} (log : List (Obs T)) : List ((T × Nat) × Event) :=
  log.filterMap fun
    | .returned x ev => some (x, ev)
    | _ => none

/-- Status and sizes of a result. -/
def summary : Event → StatusCode × List Nat
  | .result r => (r.status, r.bytes.map (·.2.length))
  | .status st n _ => (st, [n])

/-- Is the thread inside a call? -/
def Where.isInside : Where → Bool
  | .idle _ => false
  | .inside .. => true

/-- Witness: all four calls return, with overlaps: after five steps both threads are inside a call;
two calls of `Protect` use the mutex one after the other. -/
example : ∃ c c5 : Threads Bool,
    (Threads.init rightS).run Lib.toy alloc demoCalls demoSched = .ok c ∧
    Exclusive Lib.toy alloc demoCalls (Threads.init rightS) demoSched ∧
    (results c.log).map (·.1) = [(false, 0), (true, 0), (true, 1), (false, 1)] ∧
    (results c.log).map (fun x => summary x.2) =
      [(.ok, [23]), (.ok, [24]), (.ok, [23]), (.ok, [1, 1])] ∧
    (Threads.init rightS).run Lib.toy alloc demoCalls (demoSched.take 5) = .ok c5 ∧
    (c5.place false).isInside = true ∧ (c5.place true).isInside = true := by
  refine ⟨_, _, rfl, ?_, by decide +kernel, by decide +kernel, rfl, rfl, rfl⟩
  intro pre c' _ _ t t' n n' p p' op op' _ _ _ hop _ hinto
  have := List.mem_of_getElem? hop
  have h : ∀ t, ∀ op ∈ demoCalls t, unprotectsInto op = false := by
    intro t op hop
    cases t <;> simp [demoCalls] at hop <;> rcases hop with rfl | rfl <;> rfl
  rw [h t op this] at hinto
  cases hinto

/-- Two records, to be unprotected in one call. -/
def bothOp : Op := .unprotect (fun _ => .none) [.buf (record 0 [1, 23] ++ record 1 [2, 23])]

/-- The second of them. -/
def secondOp : Op := .unprotectInto .none [.buf (record 1 [2, 23])] (.buf (zeros 18))

/-- One thread unprotects two records; another, meanwhile, the second of them. -/
def raceCalls : Bool → List Op
  | false => [bothOp]
  | true => [secondOp]

/-- The second thread comes between the two records. -/
def raceSched : List Bool :=
  List.replicate 16 false ++ List.replicate 16 true ++ List.replicate 16 false

theorem race_orders {order : List (Bool × Nat)} (h : order.Nodup)
    (h0 : ∀ x ∈ order, x.2 = 0) (h1 : (false, 0) ∈ order) (h2 : (true, 0) ∈ order) :
    order = [(false, 0), (true, 0)] ∨ order = [(true, 0), (false, 0)] := by
  have hc : ∀ x ∈ order, x = (false, 0) ∨ x = (true, 0) := by
    rintro ⟨b, n⟩ hx
    have := h0 _ hx
    simp only at this
    subst this
    cases b <;> simp
  match order, h, hc, h1, h2 with
  | [], _, _, h1, _ => simp at h1
  | [x], _, _, h1, h2 =>
    simp only [List.mem_singleton] at h1 h2
    rw [← h1] at h2; simp at h2
  | [x, y], h, hc, _, _ =>
    have hx := hc x (by simp)
    have hy := hc y (by simp)
    simp only [List.nodup_cons, List.mem_singleton] at h
    rcases hx with rfl | rfl <;> rcases hy with rfl | rfl <;> simp_all
  | x :: y :: z :: l, h, hc, _, _ =>
    have hx := hc x (by simp)
    have hy := hc y (by simp)
    have hz := hc z (by simp)
    simp only [List.nodup_cons, List.mem_cons, not_or] at h
    obtain ⟨⟨e1, e2, _⟩, ⟨e3, _⟩, _⟩ := h
    rcases hx with rfl | rfl <;> rcases hy with rfl | rfl <;> rcases hz with rfl | rfl <;>
      simp_all

theorem two_ops {calls : Bool → List Op} {x y : Bool × Nat} {a b : Op} {ops : List Op}
    (hx : (calls x.1)[x.2]? = some a) (hy : (calls y.1)[y.2]? = some b)
    (h : [x, y].map (fun x => (calls x.1)[x.2]?) = ops.map some) : ops = [a, b] := by
  simp only [List.map_cons, List.map_nil, hx, hy] at h
  exact (List.map_inj_right fun _ _ e => Option.some.inj e).1
    (show ops.map some = [a, b].map some from h.symm)

/-- What the two threads get: the first an error, the second its data. -/
theorem race_run : ∃ c : Threads Bool,
    (Threads.init rightS).run Lib.toy alloc raceCalls raceSched = .ok c ∧
    c.place false = .idle 1 ∧ c.place true = .idle 1 ∧
    c.log = [.invoked (false, 0), .invoked (true, 0),
      .returned (true, 0) (.status .ok 1 (.buf (2 :: 23 :: zeros 16))),
      .returned (false, 0) (.result ⟨.internal, []⟩)] := ⟨_, rfl, rfl, rfl, rfl⟩

/-- One after the other: the first call succeeds … -/
theorem race_both_first : ∃ s r e, run Lib.toy alloc rightS [bothOp, secondOp] =
    .ok (s, [.result r, e]) ∧ r.status = .ok := ⟨_, _, _, rfl, by decide +kernel⟩

/-- … or the second one fails. -/
theorem race_second_first : ∃ s n o e, run Lib.toy alloc rightS [secondOp, bothOp] =
    .ok (s, [.status .internal n o, e]) := ⟨_, _, _, _, rfl⟩

/-- The hypothesis of `C66_linearizable` is needed: the allocating `Unprotect` takes a mutex, the
other one does not.  Here the allocating call fails and the other one succeeds, which no order
of the two calls explains. -/
theorem C66_unguarded_counterexample :
    ∃ (L : Lib) (A : Allocator) (o : Options) (s0 : State) (calls : Bool → List Op)
      (sched : List Bool) (c : Threads Bool), Created L o s0 ∧
      (Threads.init s0).run L A calls sched = .ok c ∧ AllIdle c ∧
      ¬ ∃ order, Linearizes L A calls s0 c order := by
  obtain ⟨c, hc, p1, p2, hl⟩ := race_run
  refine ⟨Lib.toy, alloc, rightO, rightS, raceCalls, raceSched, c, right_created, hc,
    fun t => ⟨1, by cases t <;> assumption⟩, ?_⟩
  rintro ⟨order, hlin⟩
  obtain ⟨ops, ren, s, evs, h1, _, h2, h3, _⟩ := hlin.sequential
  have hA : (fun i => alloc (ren i)) = alloc := rfl
  rw [hA] at h2
  have m1 := h3 (false, 0) (.result ⟨.internal, []⟩) (by rw [hl]; simp)
  have m2 := h3 (true, 0) (.status .ok 1 (.buf (2 :: 23 :: zeros 16))) (by rw [hl]; simp)
  have h0 : ∀ x ∈ order, x.2 = 0 := by
    intro x hx
    have := hlin.began x hx
    rw [hl] at this
    simp at this
    rcases this with rfl | rfl <;> rfl
  have c1 : (raceCalls false)[0]? = some bothOp := rfl
  have c2 : (raceCalls true)[0]? = some secondOp := rfl
  rcases race_orders hlin.nodup h0 (List.of_mem_zip m1).1 (List.of_mem_zip m2).1 with rfl | rfl
  · rw [two_ops (x := (false, 0)) (y := (true, 0)) c1 c2 h1] at h2
    obtain ⟨s', r, e, hs, hst⟩ := race_both_first
    rw [hs] at h2
    simp only [Except.ok.injEq, Prod.mk.injEq] at h2
    rw [← h2.2] at m1
    simp only [List.map_cons, List.map_nil, anonymous, List.zip_cons_cons, List.zip_nil_left,
      List.mem_cons, Prod.mk.injEq, Event.result.injEq, List.not_mem_nil, or_false] at m1
    rcases m1 with ⟨_, m1⟩ | ⟨m1, _⟩
    · have := congrArg Result.status m1
      rw [← this] at hst
      cases hst
    · simp at m1
  · rw [two_ops (x := (true, 0)) (y := (false, 0)) c2 c1 h1] at h2
    obtain ⟨s', n, o, e, hs⟩ := race_second_first
    rw [hs] at h2
    simp only [Except.ok.injEq, Prod.mk.injEq] at h2
    rw [← h2.2] at m2
    simp only [List.map_cons, List.map_nil, anonymous, List.zip_cons_cons, List.zip_nil_left,
      List.mem_cons, Prod.mk.injEq, Event.status.injEq, List.not_mem_nil, or_false] at m2
    rcases m2 with ⟨_, m2, _⟩ | ⟨m2, _⟩
    · cases m2
    · simp at m2

/-! ## C67: no schedule makes threads reuse a nonce -/

/-- Whatever threads do with a frame protector, even what the documentation forbids: in either
direction no two AEAD calls between the same two key updates use the same nonce. -/
theorem C67_nonces_unique_under_threads {T : Type} [DecidableEq T] (L : Lib) (A : Allocator)
    (o : Options) (calls : T → List Op) (s0 : State) (sched : List T) (c : Threads T)
    (h0 : Created L o s0) (hr : (Threads.init s0).run L A calls sched = .ok c) (d : Half) :
    (Spec.epochNonces 0 (c.keyUses d)).Nodup := by
  obtain ⟨_, _, _, hc, _, _, _, _⟩ := created_inv h0
  obtain ⟨su, hsu⟩ := Record.created_suite hc
  obtain ⟨a1, a2⟩ := hc.at hsu
  obtain ⟨hc, ops, evs, h1, h2⟩ := run_keys hr d
  rw [← h2]
  cases d with
  | outbound => exact (HalfConn.nonces_inv 0 a2.good h1).1
  | inbound => exact (HalfConn.nonces_inv 0 a1.good h1).1

/-- And in either direction all AEAD calls use the keys and nonces of RFC 8446, in sequence. -/
theorem C67_threads_follow_rfc8446 {T : Type} [DecidableEq T] (L : Lib) (A : Allocator)
    (o : Options) (su : Spec.Suite) (calls : T → List Op) (s0 : State) (sched : List T)
    (c : Threads T) (hs : Spec.suite o.args.ciphersuite = some su) (h0 : Created L o s0)
    (hr : (Threads.init s0).run L A calls sched = .ok c) :
    Spec.Follows L su o.args.outSecret 0 o.args.outSequence.toNat (c.keyUses .outbound) ∧
    Spec.Follows L su o.args.inSecret 0 o.args.inSequence.toNat (c.keyUses .inbound) := by
  obtain ⟨_, _, _, h1, _, _, _, _⟩ := created_inv h0
  obtain ⟨a1, a2⟩ := h1.at hs
  obtain ⟨fi, fo, h1⟩ := h1
  obtain ⟨_, _, _, _, g1, g2, _⟩ := Record.create_inv h1
  have e1 := (Record.half_created hs g1).2
  have e2 := (Record.half_created hs g2).2
  obtain ⟨_, _, _, b1, b2⟩ := run_keys hr .outbound
  obtain ⟨_, _, _, b3, b4⟩ := run_keys hr .inbound
  rw [← b2, ← b4]
  constructor
  · exact HalfConn.follows_run 0 a2.good
      (by show HalfConn.InEpoch L su _ 0 s0.conn.outC; rw [e2]; exact ⟨rfl, rfl, rfl⟩) _
      (fun _ => by show _ = s0.conn.outC.seq.toNat; rw [e2]; rfl) b1
  · exact HalfConn.follows_run 0 a1.good
      (by show HalfConn.InEpoch L su _ 0 s0.conn.inC; rw [e1]; exact ⟨rfl, rfl, rfl⟩) _
      (fun _ => by show _ = s0.conn.inC.seq.toNat; rw [e1]; rfl) b3

/-- Witness: in the run above three records are sealed and two opened. -/
example : ∃ c : Threads Bool,
    (Threads.init rightS).run Lib.toy alloc demoCalls demoSched = .ok c ∧
    Created Lib.toy rightO rightS ∧
    (Spec.epochNonces 0 (c.keyUses .outbound)).length = 3 ∧
    (Spec.epochNonces 0 (c.keyUses .inbound)).length = 2 :=
  ⟨_, rfl, right_created, by decide +kernel, by decide +kernel⟩

/-! ## C68: concurrency adds no undefined behaviour and no deadlock -/

/-- If a schedule leads to undefined behaviour, so do some of the calls, made one after the other
in an order that respects the times of the calls. -/
theorem C68_no_new_ub {T : Type} [DecidableEq T] (L : Lib) (A : Allocator)
    (calls : T → List Op) (s0 : State) (sched : List T) (e : UB)
    (hr : (Threads.init s0).run L A calls sched = .error e)
    (hx : Exclusive L A calls (Threads.init s0) sched) :
    ∃ pre c, pre <+: sched ∧ (Threads.init s0).run L A calls pre = .ok c ∧
      FaultsSequentially L A calls s0 c e := by
  obtain ⟨pre, t, c, ⟨r, hp⟩, h1, h2⟩ := run_error hr
  have hpre : pre <+: sched := ⟨t :: r, by rw [← hp]; simp⟩
  obtain ⟨lin, ops, idx, sL, pend, h⟩ := (inv_init L A calls s0).run (fun p c' hp' hc' =>
    hx p c' (hp'.trans hpre) hc') h1
  exact ⟨pre, c, hpre, h1, h.exec_error h2⟩

/-- One after the other, calls with proper buffers only meet the negative shift of C07. -/
theorem step_proper {L : Lib} {A : Allocator} (hA : Spec.AllocOk A) {o : Options} {s : State}
    {op : Op} {e : UB} (hr : Reach L A o s) (hv : Spec.ProperBuffers op)
    (h : step L A s op = .error e) : e = .negativeShift := by
  obtain ⟨su, hsu⟩ := hr.suite
  cases op with
  | protect f vs =>
    obtain ⟨s', res, h1, _⟩ := protect_call (A := A) (f := f) (vs := vs) hA hr.conn.1
    simp only [step, h1] at h
    cases h
  | protectInto f vs out =>
    obtain ⟨b, rfl⟩ := hv
    obtain ⟨s', st, ob, h1, _⟩ := protectInto_call (f := f) (vs := vs) (id := .caller) (ob := b)
      hr.conn.1
    simp only [step, h1] at h
    cases h
  | unprotect f vs =>
    rcases unprotect_call (A := A) (f := f) hA hsu hr.conn.1 hv with h1 | ⟨s', res, new, h1, _⟩
    · simp only [step, h1] at h; cases h; rfl
    · simp only [step, h1] at h; cases h
  | unprotectInto f vs out =>
    rcases unprotectInto_call (f := f) hsu hr.conn.1 hv.1 hv.2 with
      ⟨_, n, h1⟩ | ⟨_, _, _, _, _, _, _, _, h1 | ⟨c, r, _, _, h1⟩⟩
    · simp only [step, h1] at h; cases h
    · simp only [step, h1] at h; cases h; rfl
    · simp only [step, h1] at h; cases h

theorem run_proper {L : Lib} {A : Allocator} (hA : Spec.AllocOk A) {o : Options} {ops : List Op}
    {s : State} {e : UB} (hr : Reach L A o s) (hv : ∀ op ∈ ops, Spec.ProperBuffers op)
    (h : run L A s ops = .error e) : e = .negativeShift := by
  induction ops generalizing s with
  | nil => cases h
  | cons op ops ih =>
    cases hs : step L A s op with
    | error e' =>
      simp only [run, hs] at h
      cases h
      exact step_proper hA hr (hv op (by simp)) hs
    | ok x =>
      simp only [run, hs, exec_bind_ok] at h
      cases hn : run L A x.1 ops with
      | error e' =>
        rw [hn] at h; cases h
        exact ih (hr.step hs) (fun op h => hv op (by simp [h])) hn
      | ok y => rw [hn] at h; cases h

/-- Threads that use a created frame protector with proper buffers, as `Exclusive` asks, cause no
undefined behaviour but the negative shift of C07 (which one thread alone can cause). -/
theorem C68_threads_stay_inside {T : Type} [DecidableEq T] (L : Lib) (A : Allocator)
    (hA : Spec.AllocOk A) (o : Options) (calls : T → List Op) (s0 : State) (sched : List T) (e : UB)
    (h0 : Created L o s0) (hv : ∀ t, ∀ op ∈ calls t, Spec.ProperBuffers op)
    (hr : (Threads.init s0).run L A calls sched = .error e)
    (hx : Exclusive L A calls (Threads.init s0) sched) : e = .negativeShift := by
  obtain ⟨pre, c, _, _, order, ops, ren, _, _, _, h1, _, h2⟩ := C68_no_new_ub L A calls s0 sched e hr hx
  refine run_proper (A := fun i => A (ren i)) (fun i n => hA (ren i) n) (o := o) ⟨s0, [], [], h0, rfl⟩
    (fun op hop => ?_) h2
  have hm : some op ∈ order.map (fun x => (calls x.1)[x.2]?) := by
    rw [h1]; exact List.mem_map.mpr ⟨op, hop, rfl⟩
  obtain ⟨x, _, hx⟩ := List.mem_map.mp hm
  exact hv x.1 op (List.mem_of_getElem? hx)

/-- Witness: with an empty piece between two records there is undefined behaviour, in threads as
alone (C07); and the calls of `demoCalls` have proper buffers. -/
example : (∃ e, (Threads.init rightS).run Lib.toy alloc
      (fun b => if b then [.protect (fun _ => .none) [.buf [1]]] else
        [.unprotect (fun _ => .none) [.buf (record 0 [1, 2, 23]), .buf [],
          .buf (record 1 [3, 4, 23])]]) demoSched = .error e ∧ e = .outOfBounds) ∧
    ∀ t, ∀ op ∈ demoCalls t, Spec.ProperBuffers op := by
  refine ⟨⟨_, rfl, rfl⟩, ?_⟩
  intro t op hop
  cases t <;> simp [demoCalls] at hop <;> rcases hop with rfl | rfl
  · trivial
  · intro v hv
    rw [List.mem_singleton.1 hv]
    exact ⟨_, rfl, by decide +kernel⟩
  · trivial
  · exact ⟨_, rfl⟩

/-- In whatever state a schedule has left the threads (even one the documentation forbids), every call
that has begun can return: no set of calls blocks each other. -/
theorem C68_no_deadlock {T : Type} [DecidableEq T] (L : Lib) (A : Allocator)
    (calls : T → List Op) (s0 : State) (sched : List T) (c : Threads T)
    (hr : (Threads.init s0).run L A calls sched = .ok c) (t : T) (n : Nat) (p : Prog Event)
    (hp : c.place t = .inside n p) :
    ∃ more, (∃ e, c.run L A calls more = .error e) ∨
      ∃ c', c.run L A calls more = .ok c' ∧ c'.place t = .idle (n + 1) :=
  call_leads ((LockInv.init _ calls s0).run (fun _ => Closed.trivial L) hr) hp

/-- Witness: one thread waits for a mutex while the other holds this one and that of the half
connection. -/
example : ∃ c : Threads Bool,
    (Threads.init rightS).run Lib.toy alloc demoCalls
      (List.replicate 8 false ++ List.replicate 9 true) = .ok c ∧
    c.holder .protectMu = some false ∧ c.holder (.half .outbound) = some false ∧
    (c.place true).isInside = true ∧ c.log.length = 2 := ⟨_, rfl, rfl, rfl, rfl, rfl⟩

end S2A.Frame
