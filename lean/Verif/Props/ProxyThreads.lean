import Verif.Lemmas.ProxyThreads
import Verif.Props.Proxy
/-
Several threads that use one proxy.
-/
namespace S2A.Proxy
open Spec (Earlier)
open Spec.OnProxy
open Demo

set_option maxRecDepth 100000

/-! ## C110: concurrent calls on a proxy behave as if made one after the other -/

theorem create_not_finished {o : Options} {s0 : State} (h : create o = some s0) :
    s0.finished = false := by
  unfold create at h
  split at h
  · cases h
  · cases h
  · cases h; rfl

/-- Any number of threads make any calls on one proxy, in any schedule, with any failures.  If at no
time two of them are inside `CreateFrameProtector` or inside `GetS2AContext`, nor one inside one of
the two while another brings a further handshake result, then there is an order of the calls that
explains all results. -/
theorem C110_linearizable {T : Type} [DecidableEq T] (L : Lib) (o : Options)
    (calls : T → List Op) (s0 : State) (sched : List T) (c : Threads T)
    (h0 : create o = some s0) (hr : (Threads.init s0).run L calls sched = .ok c)
    (hx : Exclusive L calls (Threads.init s0) sched) :
    ∃ order, Linearizes L calls s0 c order := by
  obtain ⟨lin, ops, g, pend, h⟩ := (tinv_init L calls s0 (create_not_finished h0)).run hx hr
  exact ⟨_, h.linearizes⟩

/-- `GetBytesForS2A`, `GetBytesForPeer` and `IsHandshakeFinished` need no condition. -/
theorem C110_mutex_calls {T : Type} [DecidableEq T] (L : Lib) (o : Options)
    (calls : T → List Op) (s0 : State) (sched : List T) (c : Threads T)
    (h0 : create o = some s0) (hr : (Threads.init s0).run L calls sched = .ok c)
    (hm : ∀ t, ∀ op ∈ calls t, creates op = false ∧ takesContext op = false) :
    ∃ order, Linearizes L calls s0 c order := by
  refine C110_linearizable L o calls s0 sched c h0 hr ?_
  intro pre c' _ _ t t' n n' p p' op op' _ _ _ hop _
  obtain ⟨h1, h2⟩ := hm t op (List.mem_of_getElem? hop)
  rw [h1, h2]
  simp

/-- Nor do threads of which one makes all calls of `CreateFrameProtector`, and one (the same or another)
all calls of `GetS2AContext`, if only one call brings a handshake result. -/
theorem C110_one_result {T : Type} [DecidableEq T] (L : Lib) (o : Options)
    (calls : T → List Op) (s0 : State) (sched : List T) (c : Threads T)
    (h0 : create o = some s0) (hr : (Threads.init s0).run L calls sched = .ok c)
    (hc : ∀ t t' op op', op ∈ calls t → op' ∈ calls t' → creates op = true → creates op' = true →
      t = t')
    (hg : ∀ t t' op op', op ∈ calls t → op' ∈ calls t' → takesContext op = true →
      takesContext op' = true → t = t')
    (hb : ∀ (x y : T × Nat) op op', (calls x.1)[x.2]? = some op → (calls y.1)[y.2]? = some op' →
      brings op = true → brings op' = true → x = y) :
    ∃ order, Linearizes L calls s0 c order := by
  refine C110_linearizable L o calls s0 sched c h0 hr ?_
  intro pre c' _ _ t t' n n' p p' op op' hne _ _ hop hop'
  refine ⟨fun h => hne ?_, fun h => hne ?_, fun _ hb' x op'' _ hx h'' => ?_⟩
  · exact hc t t' op op' (List.mem_of_getElem? hop) (List.mem_of_getElem? hop') h.1 h.2
  · exact hg t t' op op' (List.mem_of_getElem? hop) (List.mem_of_getElem? hop') h.1 h.2
  · cases hb'' : brings op'' with
    | false => rfl
    | true => exact absurd (hb x (t', n') op'' op' h'' hop' hb'' hb') hx

/-- The calls of the witness: one thread makes the handshake and then a frame protector, the other
asks for the context twice, and whether the handshake is finished. -/
def demoCalls : Bool → List Op
  | false => [.forS2A env none, says done, .createFrameProtector .none .none]
  | true => [.isFinished, .getContext, .getContext]

/-- The threads take turns. -/
def demoSched : List Bool := (List.replicate 40 [false, true]).flatten

/-- Another schedule: the second thread asks for the context while the first one is inside
`GetBytesForPeer` with the result. -/
def lateSched : List Bool :=
  List.replicate 7 false ++ List.replicate 10 true ++ List.replicate 9 false ++
    List.replicate 2 true ++ List.replicate 40 false ++ List.replicate 20 true

/-- What the caller sees of a result, in numbers. -/
def seen : Event → List Nat
  | .createFrameProtector (.ok p) =>
    [p.conn.inC.seq.toNat, p.conn.outC.seq.toNat, p.conn.hasFactory.toNat]
  | .createFrameProtector (.error _) => [0]
  | .getContext (.ok (some _)) => [1]
  | .getContext (.ok none) => [2]
  | .getContext (.error _) => [3]
  | .isFinished b => [b.toNat]
  | _ => []

/-- The results in a log. -/
def results {T : Type} (log : List (Obs T)) : List ((T × Nat) × List Nat) :=
  log.filterMap fun
    | .returned x ev => some (x, seen ev)
    | _ => none

/-- Is the thread inside a call? -/
def Where.isInside : Where → Bool
  | .idle _ => false
  | .inside .. => true

/-- Witness: both schedules meet the hypotheses, and all calls return.  In the first one the second
thread gets the context, and then a null pointer; in the second it first asks too early, and then
waits inside `GetS2AContext` while the other thread is inside `GetBytesForPeer`. -/
example : ∃ c c' c28 : Threads Bool, create client = some (made client) ∧
    (Threads.init (made client)).run Lib.toy demoCalls demoSched = .ok c ∧
    (Threads.init (made client)).run Lib.toy demoCalls lateSched = .ok c' ∧
    (Threads.init (made client)).run Lib.toy demoCalls (lateSched.take 28) = .ok c28 ∧
    (∀ sched, Exclusive Lib.toy demoCalls (Threads.init (made client)) sched) ∧
    results c.log = [((false, 0), []), ((true, 0), [0]), ((false, 1), []), ((true, 1), [1]),
      ((true, 2), [2]), ((false, 2), [5, 9, 1])] ∧
    results c'.log = [((false, 0), []), ((true, 0), [0]), ((true, 1), [3]), ((false, 1), []),
      ((false, 2), [5, 9, 1]), ((true, 2), [1])] ∧
    (c28.place false).isInside = true ∧ (c28.place true).isInside = true := by
  refine ⟨_, _, _, rfl, rfl, rfl, rfl, ?_, by decide +kernel, by decide +kernel, rfl, rfl⟩
  intro sched pre c' _ _ t t' n n' p p' op op' hne _ _ hop hop'
  have hb : ∀ x op'', (demoCalls x.1)[x.2]? = some op'' → brings op'' = true → x = (false, 1) := by
    rintro ⟨b, n⟩ op'' h hb
    cases b <;> match n, h with
      | 0, h => cases h; cases hb
      | 1, h => first | rfl | (cases h; cases hb)
      | 2, h => cases h; cases hb
  have hc : ∀ t op, op ∈ demoCalls t → creates op = true → t = false := by
    intro t op h hc
    cases t <;> simp [demoCalls] at h <;> first | rfl | (rcases h with rfl | rfl | rfl <;> cases hc)
  have hg : ∀ t op, op ∈ demoCalls t → takesContext op = true → t = true := by
    intro t op h hc
    cases t <;> simp [demoCalls] at h <;> first | rfl | (rcases h with rfl | rfl | rfl <;> cases hc)
  have m := List.mem_of_getElem? hop
  have m' := List.mem_of_getElem? hop'
  refine ⟨fun h => hne ((hc t op m h.1).trans (hc t' op' m' h.2).symm),
    fun h => hne ((hg t op m h.1).trans (hg t' op' m' h.2).symm), fun _ hb' x op'' _ hx h'' => ?_⟩
  cases hb'' : brings op'' with
  | false => rfl
  | true => exact absurd ((hb x op'' h'' hb'').trans (hb (t', n') op' hop' hb').symm) hx

/-! ### The conditions are needed -/

theorem all_same {α : Type} {l : List α} {a : α} (hn : l.Nodup) (h : ∀ x ∈ l, x = a) :
    l = [] ∨ l = [a] := by
  match l, hn, h with
  | [], _, _ => exact .inl rfl
  | [x], _, h => rw [h x (by simp)]; exact .inr rfl
  | x :: y :: l, hn, h =>
    rw [h x (by simp), h y (by simp)] at hn
    simp at hn

/-- The orders of two calls of one thread and one of another. -/
theorem three_orders {order : List (Bool × Nat)} (hn : order.Nodup)
    (hs : ∀ x ∈ order, x = (false, 0) ∨ x = (false, 1) ∨ x = (true, 0))
    (he : Earlier order (false, 0) (false, 1)) (hc : (true, 0) ∈ order) :
    order = [(false, 0), (false, 1), (true, 0)] ∨ order = [(false, 0), (true, 0), (false, 1)] ∨
      order = [(true, 0), (false, 0), (false, 1)] := by
  obtain ⟨l1, l2, l3, rfl⟩ := he
  simp only [List.append_assoc, List.cons_append, List.nodup_append, List.nodup_cons,
    List.mem_append, List.mem_cons, not_or, ne_eq] at hn
  obtain ⟨n1, ⟨⟨n2, n3, n4⟩, n5, ⟨n6, n7⟩, n8⟩, n9⟩ := hn
  have e1 : ∀ x ∈ l1, x = (true, 0) := by
    intro x hx
    rcases hs x (by simp [hx]) with rfl | rfl | rfl
    · exact absurd rfl (n9 _ hx _ (.inl rfl))
    · exact absurd rfl (n9 _ hx _ (.inr (.inr (.inl rfl))))
    · rfl
  have e2 : ∀ x ∈ l2, x = (true, 0) := by
    intro x hx
    rcases hs x (by simp [hx]) with rfl | rfl | rfl
    · exact absurd hx n2
    · exact absurd rfl (n8 _ hx _ (.inl rfl))
    · rfl
  have e3 : ∀ x ∈ l3, x = (true, 0) := by
    intro x hx
    rcases hs x (by simp [hx]) with rfl | rfl | rfl
    · exact absurd hx n4
    · exact absurd hx n6
    · rfl
  rcases all_same n1 e1 with rfl | rfl <;> rcases all_same n5 e2 with rfl | rfl <;>
    rcases all_same n7 e3 with rfl | rfl <;> simp_all

/-- What is seen of a history. -/
def seenAll (r : Exec (State × List Event)) : List (List Nat) :=
  match r with
  | .ok x => x.2.map seen
  | .error _ => []

theorem three_ops {calls : Bool → List Op} {x y z : Bool × Nat} {a b d : Op} {ops : List Op}
    (hx : (calls x.1)[x.2]? = some a) (hy : (calls y.1)[y.2]? = some b)
    (hz : (calls z.1)[z.2]? = some d)
    (h : [x, y, z].map (fun x => (calls x.1)[x.2]?) = ops.map some) : ops = [a, b, d] := by
  simp only [List.map_cons, List.map_nil, hx, hy, hz] at h
  exact (List.map_inj_right fun _ _ e => Option.some.inj e).1
    (show ops.map some = [a, b, d].map some from h.symm)

theorem length_three {α : Type} {l : List α} (h : l.length = 3) : ∃ a b c, l = [a, b, c] := by
  match l, h with
  | [a, b, c], _ => exact ⟨a, b, c, rfl⟩

/-- If what two calls saw is not what they see in one of the three orders, there is no order. -/
theorem no_order {L : Lib} {s0 : State} {calls : Bool → List Op} {a b d : Op} {c : Threads Bool} {e e1 e2 : Event}
    (hf : calls false = [a, b]) (ht : calls true = [d])
    (hl : ∃ l1 l2 l3, c.log = l1 ++ .returned (false, 0) e :: l2 ++ .invoked (false, 1) :: l3)
    (hi : ∀ x, .invoked x ∈ c.log → x = (false, 0) ∨ x = (false, 1) ∨ x = (true, 0))
    (r1 : .returned (false, 1) e1 ∈ c.log) (r2 : .returned (true, 0) e2 ∈ c.log)
    (h1 : (seenAll (run L s0 [a, b, d])).eraseIdx 0 ≠ [seen e1, seen e2])
    (h2 : (seenAll (run L s0 [a, d, b])).eraseIdx 0 ≠ [seen e2, seen e1])
    (h3 : (seenAll (run L s0 [d, a, b])).eraseIdx 1 ≠ [seen e2, seen e1]) :
    ¬ ∃ order, Linearizes L calls s0 c order := by
  rintro ⟨order, hlin⟩
  obtain ⟨ops, s, evs, k1, k2, k3, _⟩ := hlin.sequential
  have m1 := k3 _ _ r1
  have m2 := k3 _ _ r2
  obtain ⟨l1, l2, l3, hl⟩ := hl
  have he := hlin.realTime (false, 0) (false, 1) ⟨l1, l2, l3, e, hl⟩ (List.of_mem_zip m1).1
  have c1 : (calls false)[0]? = some a := by rw [hf]; rfl
  have c2 : (calls false)[1]? = some b := by rw [hf]; rfl
  have c3 : (calls true)[0]? = some d := by rw [ht]; rfl
  have len : ∀ {ops : List Op} {s0 s : State} {evs : List Event},
      run L s0 ops = .ok (s, evs) → evs.length = ops.length := by
    intro ops
    induction ops with
    | nil => intro s0 s evs h; cases h; rfl
    | cons op ops ih =>
      intro s0 s evs h
      simp only [run, HalfConn.exec_bind_eq_ok] at h
      obtain ⟨⟨s1, ev⟩, _, ⟨s2, evs'⟩, h4, h5⟩ := h
      cases h5
      rw [List.length_cons, List.length_cons, ih h4]
  have hlen := len k2
  rcases three_orders hlin.nodup (fun x hx => hi x (hlin.began x hx)) he (List.of_mem_zip m2).1 with
    rfl | rfl | rfl
  · rw [three_ops (x := (false, 0)) (y := (false, 1)) (z := (true, 0)) c1 c2 c3 k1] at k2 hlen
    obtain ⟨u, v, w, rfl⟩ := length_three hlen
    simp only [List.zip_cons_cons, List.zip_nil_left, List.mem_cons, Prod.mk.injEq,
      List.not_mem_nil, or_false, Nat.zero_ne_one, Nat.one_ne_zero, Bool.false_eq_true,
      Bool.true_eq_false, false_and, and_false, true_and, false_or, and_self, and_true] at m1 m2
    subst m1; subst m2
    exact h1 (by rw [k2]; rfl)
  · rw [three_ops (x := (false, 0)) (y := (true, 0)) (z := (false, 1)) c1 c3 c2 k1] at k2 hlen
    obtain ⟨u, v, w, rfl⟩ := length_three hlen
    simp only [List.zip_cons_cons, List.zip_nil_left, List.mem_cons, Prod.mk.injEq,
      List.not_mem_nil, or_false, Nat.zero_ne_one, Nat.one_ne_zero, Bool.false_eq_true,
      Bool.true_eq_false, false_and, and_false, true_and, false_or, and_self, and_true] at m1 m2
    subst m1; subst m2
    exact h2 (by rw [k2]; rfl)
  · rw [three_ops (x := (true, 0)) (y := (false, 0)) (z := (false, 1)) c3 c1 c2 k1] at k2 hlen
    obtain ⟨u, v, w, rfl⟩ := length_three hlen
    simp only [List.zip_cons_cons, List.zip_nil_left, List.mem_cons, Prod.mk.injEq,
      List.not_mem_nil, or_false, Nat.zero_ne_one, Nat.one_ne_zero, Bool.false_eq_true,
      Bool.true_eq_false, false_and, and_false, true_and, false_or, and_self, and_true] at m1 m2
    subst m1; subst m2
    exact h3 (by rw [k2]; rfl)

/-- The shape of the three runs: the second thread makes its call while the first one is inside its
second call. -/
theorem overlapped {L : Lib} {o : Options} {s0 : State} {calls : Bool → List Op} {a b d : Op}
    {sched : List Bool} {v1 v2 : List Nat} (h0 : create o = some s0)
    (hf : calls false = [a, b]) (ht : calls true = [d])
    (hr : ∃ c : Threads Bool, (Threads.init s0).run L calls sched = .ok c ∧
      c.place false = .idle 2 ∧ c.place true = .idle 1 ∧
      ∃ e e1 e2, c.log = [.invoked (false, 0), .returned (false, 0) e, .invoked (false, 1),
        .invoked (true, 0), .returned (true, 0) e2, .returned (false, 1) e1] ∧
      seen e1 = v1 ∧ seen e2 = v2)
    (h1 : (seenAll (run L s0 [a, b, d])).eraseIdx 0 ≠ [v1, v2])
    (h2 : (seenAll (run L s0 [a, d, b])).eraseIdx 0 ≠ [v2, v1])
    (h3 : (seenAll (run L s0 [d, a, b])).eraseIdx 1 ≠ [v2, v1]) :
    ∃ (c : Threads Bool) (e1 e2 : Event), create o = some s0 ∧
      (Threads.init s0).run L calls sched = .ok c ∧ AllIdle c ∧
      .returned (false, 1) e1 ∈ c.log ∧ .returned (true, 0) e2 ∈ c.log ∧
      seen e1 = v1 ∧ seen e2 = v2 ∧ ¬ ∃ order, Linearizes L calls s0 c order := by
  obtain ⟨c, hc, p1, p2, e, e1, e2, hl, rfl, rfl⟩ := hr
  refine ⟨c, e1, e2, h0, hc, fun t => ?_, by rw [hl]; simp, by rw [hl]; simp, rfl, rfl,
    no_order (e := e) hf ht ⟨[.invoked (false, 0)], [], _, by rw [hl]; rfl⟩ ?_ (by rw [hl]; simp)
      (by rw [hl]; simp) h1 h2 h3⟩
  · cases t
    · exact ⟨2, p1⟩
    · exact ⟨1, p2⟩
  · intro x hx
    rw [hl] at hx
    simp only [List.mem_cons, Obs.invoked.injEq, reduceCtorEq, List.not_mem_nil, or_false,
      false_or] at hx
    exact hx

/-- A second result, with other sequence numbers. -/
def secondDone : Proto.SessionResp :=
  { done with result := some { result with state := some { state with inSequence := 15
                                                                      outSequence := 19 } } }

/-- One thread gets a result and makes a frame protector; another, meanwhile, gets another
result. -/
def mixCalls : Bool → List Op
  | false => [says done, .createFrameProtector .none .none]
  | true => [says secondDone]

/-- The first condition is needed: here the frame protector is made of parts of two results.  It
decrypts with the sequence number 5 of the first and encrypts with 19 of the second, which no order
of the calls explains. -/
theorem C110_mixed_results_counterexample :
    ∃ (sched : List Bool) (c : Threads Bool) (p : Frame.State), create client = some (made client) ∧
      (Threads.init (made client)).run Lib.toy mixCalls sched = .ok c ∧ AllIdle c ∧
      .returned (false, 1) (.createFrameProtector (.ok p)) ∈ c.log ∧
      p.conn.inC.seq = 5 ∧ p.conn.outC.seq = 19 ∧
      ¬ ∃ order, Linearizes Lib.toy mixCalls (made client) c order := by
  obtain ⟨c, e1, e2, h1, h2, h3, h4, _, h5, _, h6⟩ := overlapped (L := Lib.toy) (o := client)
    (s0 := made client) (calls := mixCalls) (v1 := [5, 19, 1]) (v2 := [])
    (sched := List.replicate 24 false ++ List.replicate 15 true ++ List.replicate 8 false)
    rfl rfl rfl ⟨_, rfl, rfl, rfl, _, _, _, rfl, by decide +kernel, rfl⟩
    (by decide +kernel) (by decide +kernel) (by decide +kernel)
  have : ∃ p, e1 = .createFrameProtector (.ok p) ∧ p.conn.inC.seq = 5 ∧ p.conn.outC.seq = 19 := by
    match e1, h5 with
    | .createFrameProtector (.ok p), h5 =>
      simp only [seen, List.cons.injEq] at h5
      exact ⟨p, rfl, UInt64.toNat.inj h5.1, UInt64.toNat.inj h5.2.1⟩
    | .createFrameProtector (.error _), h5 => simp [seen] at h5
    | .getContext (.ok (some _)), h5 => simp [seen] at h5
    | .getContext (.ok none), h5 => simp [seen] at h5
    | .getContext (.error _), h5 => simp [seen] at h5
    | .isFinished _, h5 => simp [seen] at h5
    | .forS2A .., h5 => simp [seen] at h5
    | .forPeer .., h5 => simp [seen] at h5
  obtain ⟨p, rfl, h7, h8⟩ := this
  exact ⟨_, c, p, h1, h2, h3, h4, h7, h8, h6⟩

/-- Two threads that ask for the context. -/
def twiceCalls : Bool → List Op
  | false => [says done, .getContext]
  | true => [.getContext]

/-- So is the second: here both threads get the one context there is, and both will delete it. -/
theorem C110_context_twice_counterexample :
    ∃ (sched : List Bool) (c : Threads Bool) (ctx ctx' : Context),
      create client = some (made client) ∧
      (Threads.init (made client)).run Lib.toy twiceCalls sched = .ok c ∧ AllIdle c ∧
      .returned (false, 1) (.getContext (.ok (some ctx))) ∈ c.log ∧
      .returned (true, 0) (.getContext (.ok (some ctx'))) ∈ c.log ∧
      ¬ ∃ order, Linearizes Lib.toy twiceCalls (made client) c order := by
  refine ⟨List.replicate 20 false ++ List.replicate 15 true ++ List.replicate 8 false, ?_⟩
  have hr : ∃ c : Threads Bool, (Threads.init (made client)).run Lib.toy twiceCalls
      (List.replicate 20 false ++ List.replicate 15 true ++ List.replicate 8 false) = .ok c ∧
      c.place false = .idle 2 ∧ c.place true = .idle 1 ∧
      ∃ e ctx ctx', c.log = [.invoked (false, 0), .returned (false, 0) e, .invoked (false, 1),
        .invoked (true, 0), .returned (true, 0) (.getContext (.ok (some ctx'))),
        .returned (false, 1) (.getContext (.ok (some ctx)))] := ⟨_, rfl, rfl, rfl, _, _, _, rfl⟩
  obtain ⟨c, hc, p1, p2, e, ctx, ctx', hl⟩ := hr
  obtain ⟨c', _, _, h1, h2, h3, _, _, _, _, h6⟩ := overlapped (L := Lib.toy) (o := client)
    (s0 := made client) (calls := twiceCalls) (v1 := [1]) (v2 := [1]) rfl rfl rfl
    ⟨c, hc, p1, p2, e, _, _, hl, rfl, rfl⟩
    (by decide +kernel) (by decide +kernel) (by decide +kernel)
  rw [hc] at h2
  cases h2
  exact ⟨c, ctx, ctx', h1, hc, h3, by rw [hl]; simp, by rw [hl]; simp, h6⟩

/-- Two threads that make a frame protector. -/
def bothCalls : Bool → List Op
  | false => [says done, .createFrameProtector .none .none]
  | true => [.createFrameProtector .none .none]

/-- And the third: here two frame protectors have the one channel factory there is. -/
theorem C110_factory_twice_counterexample :
    ∃ (sched : List Bool) (c : Threads Bool) (p p' : Frame.State),
      create client = some (made client) ∧
      (Threads.init (made client)).run Lib.toy bothCalls sched = .ok c ∧ AllIdle c ∧
      .returned (false, 1) (.createFrameProtector (.ok p)) ∈ c.log ∧
      .returned (true, 0) (.createFrameProtector (.ok p')) ∈ c.log ∧
      p.conn.hasFactory = true ∧ p'.conn.hasFactory = true ∧
      ¬ ∃ order, Linearizes Lib.toy bothCalls (made client) c order := by
  refine ⟨List.replicate 28 false ++ List.replicate 15 true ++ List.replicate 8 false, ?_⟩
  have hr : ∃ c : Threads Bool, (Threads.init (made client)).run Lib.toy bothCalls
      (List.replicate 28 false ++ List.replicate 15 true ++ List.replicate 8 false) = .ok c ∧
      c.place false = .idle 2 ∧ c.place true = .idle 1 ∧
      ∃ e p p', c.log = [.invoked (false, 0), .returned (false, 0) e, .invoked (false, 1),
        .invoked (true, 0), .returned (true, 0) (.createFrameProtector (.ok p')),
        .returned (false, 1) (.createFrameProtector (.ok p))] ∧
        p.conn.hasFactory = true ∧ p'.conn.hasFactory = true ∧
        seen (.createFrameProtector (.ok p)) = [5, 9, 1] ∧
        seen (.createFrameProtector (.ok p')) = [5, 9, 1] :=
    ⟨_, rfl, rfl, rfl, _, _, _, rfl, rfl, rfl, by decide +kernel, by decide +kernel⟩
  obtain ⟨c, hc, p1, p2, e, p, p', hl, f1, f2, s1, s2⟩ := hr
  obtain ⟨c', _, _, h1, h2, h3, _, _, _, _, h6⟩ := overlapped (L := Lib.toy) (o := client)
    (s0 := made client) (calls := bothCalls) (v1 := [5, 9, 1]) (v2 := [5, 9, 1]) rfl rfl rfl
    ⟨c, hc, p1, p2, e, _, _, hl, s1, s2⟩
    (by decide +kernel) (by decide +kernel) (by decide +kernel)
  rw [hc] at h2
  cases h2
  exact ⟨c, p, p', h1, hc, h3, by rw [hl]; simp, by rw [hl]; simp, f1, f2, h6⟩

/-! ### Undefined behaviour and deadlocks -/

/-- If a schedule leads to undefined behaviour, so do some of the calls, made one after the other
in an order that respects the times of the calls. -/
theorem C110_no_new_ub {T : Type} [DecidableEq T] (L : Lib) (o : Options)
    (calls : T → List Op) (s0 : State) (sched : List T) (e : UB) (h0 : create o = some s0)
    (hr : (Threads.init s0).run L calls sched = .error e)
    (hx : Exclusive L calls (Threads.init s0) sched) :
    ∃ pre c, pre <+: sched ∧ (Threads.init s0).run L calls pre = .ok c ∧
      FaultsSequentially L calls s0 c e := by
  obtain ⟨pre, t, c, ⟨r, hp⟩, h1, h2⟩ := run_error hr
  have hpre : pre <+: sched := ⟨t :: r, by rw [← hp]; simp⟩
  obtain ⟨lin, ops, g, pend, h⟩ := (tinv_init L calls s0 (create_not_finished h0)).run
    (fun p c' hp' hc' => hx p c' (hp'.trans hpre) hc') h1
  exact ⟨pre, c, hpre, h1, h.exec_error h2⟩

/-- A result without a session state. -/
def bareDone : Proto.SessionResp := { done with result := some { result with state := none } }

/-- Witness: after a result without a session state `CreateFrameProtector` reads through a null
pointer, in threads as alone (C46). -/
example : ∃ e, (Threads.init (made client)).run Lib.toy
      (fun b => if b then [.createFrameProtector .none .none] else [says bareDone])
      (List.replicate 9 false ++ List.replicate 9 true) = .error e ∧ e = .nullDeref ∧
    run Lib.toy (made client) [says bareDone, .createFrameProtector .none .none] =
      .error .nullDeref := ⟨_, rfl, rfl, rfl⟩

/-- In whatever state a schedule has left the threads, even one with forbidden overlaps, every call that
has begun can return. -/
theorem C110_no_deadlock {T : Type} [DecidableEq T] (L : Lib) (calls : T → List Op)
    (s0 : State) (sched : List T) (c : Threads T)
    (hr : (Threads.init s0).run L calls sched = .ok c) (t : T) (n : Nat) (p : Prog)
    (hp : c.place t = .inside n p) :
    ∃ more, (∃ e, c.run L calls more = .error e) ∨
      ∃ c', c.run L calls more = .ok c' ∧ c'.place t = .idle (n + 1) :=
  LockOk.leads (LockOk.run (fun _ => by simp [Threads.init]) hr) hp

/-- Witness: one thread waits for the mutex, which the other has. -/
example : ∃ c : Threads Bool,
    (Threads.init (made client)).run Lib.toy demoCalls
      (List.replicate 3 false ++ List.replicate 3 true) = .ok c ∧
    c.holder = some false ∧ (c.place true).isInside = true := ⟨_, rfl, rfl, rfl⟩

end S2A.Proxy
