import Verif.Lemmas.Threads
import Verif.Lemmas.Session
import Verif.Spec.Senders
/-
Messages that several threads send: the log of the threads, and the bytes on the wire.
-/
namespace S2A.Frame
open HalfConn (At exec_bind_eq_ok)
open Record (Ready)
open Spec (AllocOk Precedes Earlier AllIdle transmits protects SendsMemory delivered Succeeded
  anonymous)
variable {T : Type} [DecidableEq T]

/-! ### The log -/

/-- The calls of a thread that have returned are those before this one. -/
def Where.current : Where → Nat
  | .idle n => n
  | .inside n _ => n

structure LogInv (c : Threads T) : Prop where
  returned : ∀ t k, k < (c.place t).current → ∃ ev, .returned (t, k) ev ∈ c.log
  began : ∀ t k, .invoked (t, k) ∈ c.log → k < (c.place t).next
  inOrder : ∀ t m n, m < n → .invoked (t, n) ∈ c.log → Precedes c.log (t, m) (t, n)

omit [DecidableEq T] in
theorem precedes_snoc {log : List (Obs T)} {a b : T × Nat} (h : Precedes log a b) (x : Obs T) :
    Precedes (log ++ [x]) a b := by
  obtain ⟨l1, l2, l3, ev, rfl⟩ := h
  exact ⟨l1, l2, l3 ++ [x], ev, by simp⟩

theorem LogInv.init (s : State) : LogInv (Threads.init s : Threads T) :=
  ⟨fun t k h => by simp [Threads.init, Where.current] at h,
   fun t k h => by simp [Threads.init] at h, fun t m n _ h => by simp [Threads.init] at h⟩

/-- A step inside a call. -/
theorem LogInv.inside {c c' : Threads T} (h : LogInv c) {t : T} {n : Nat} {p p' : Prog Event}
    (hp : c.place t = .inside n p) (hc : c'.place = upd c.place t (.inside n p'))
    (hl : c'.log = c.log) : LogInv c' := by
  have hcur : ∀ t', (c'.place t').current = (c.place t').current ∧
      (c'.place t').next = (c.place t').next := by
    intro t'
    rw [hc]
    by_cases he : t' = t
    · subst he; simp [upd, hp, Where.current, Where.next]
    · simp [upd, he]
  refine ⟨fun t' k hk => ?_, fun t' k hk => ?_, fun t' m k hm hk => ?_⟩
  · rw [hl]; exact h.returned t' k (by rw [← (hcur t').1]; exact hk)
  · rw [(hcur t').2]; exact h.began t' k (by rw [← hl]; exact hk)
  · rw [hl] at hk ⊢; exact h.inOrder t' m k hm hk

theorem LogInv.exec {L : Lib} {A : Allocator} {calls : T → List Op} {c c' : Threads T}
    (h : LogInv c) {t : T} (hx : c.exec L A calls t = .ok c') : LogInv c' := by
  cases hw : c.place t with
  | idle n =>
    cases hop : (calls t)[n]? with
    | none =>
      simp only [Threads.exec, hw, hop, Except.ok.injEq] at hx
      subst hx; exact h
    | some op =>
      simp only [Threads.exec, hw, hop, Except.ok.injEq] at hx
      subst hx
      refine ⟨fun t' k hk => ?_, fun t' k hk => ?_, fun t' m k hm hk => ?_⟩
      · have : k < (c.place t').current := by
          by_cases he : t' = t
          · subst he; rw [hw]; simpa [upd, Where.current] using hk
          · simpa [upd, he] using hk
        obtain ⟨ev, hev⟩ := h.returned t' k this
        exact ⟨ev, by simp [hev]⟩
      · simp only [List.mem_append, List.mem_singleton, Obs.invoked.injEq, Prod.mk.injEq] at hk
        rcases hk with hk | ⟨rfl, rfl⟩
        · have := h.began t' k hk
          by_cases he : t' = t
          · subst he
            rw [hw] at this
            simp only [upd, if_true, Where.next] at this ⊢
            omega
          · simpa [upd, he] using this
        · simp [upd, Where.next]
      · simp only [List.mem_append, List.mem_singleton, Obs.invoked.injEq, Prod.mk.injEq] at hk
        rcases hk with hk | ⟨rfl, rfl⟩
        · exact precedes_snoc (h.inOrder t' m k hm hk) _
        · obtain ⟨ev, hev⟩ := h.returned t' m (by rw [hw]; exact hm)
          obtain ⟨l1, l2, e⟩ := List.append_of_mem hev
          exact ⟨l1, l2, [], ev, by simp only [e]⟩
  | inside n p =>
    cases p with
    | done ev =>
      simp only [Threads.exec, hw, Except.ok.injEq] at hx
      subst hx
      refine ⟨fun t' k hk => ?_, fun t' k hk => ?_, fun t' m k hm hk => ?_⟩
      · by_cases he : t' = t
        · subst he
          simp only [upd, if_true, Where.current] at hk
          by_cases hkn : k = n
          · subst hkn; exact ⟨ev, by simp⟩
          · obtain ⟨ev', hev⟩ := h.returned t' k (by rw [hw]; simp only [Where.current]; omega)
            exact ⟨ev', by simp [hev]⟩
        · obtain ⟨ev', hev⟩ := h.returned t' k (by simpa [upd, he] using hk)
          exact ⟨ev', by simp [hev]⟩
      · have := h.began t' k (by simpa using hk)
        by_cases he : t' = t
        · subst he
          rw [hw] at this
          simpa [upd, Where.next] using this
        · simpa [upd, he] using this
      · exact precedes_snoc (h.inOrder t' m k hm (by simpa using hk)) _
    | ub e => simp only [Threads.exec, hw] at hx; cases hx
    | acquire m k =>
      simp only [Threads.exec, hw] at hx
      split at hx <;> cases hx
      · exact h
      · exact h.inside hw rfl rfl
    | release m k => simp only [Threads.exec, hw] at hx; cases hx; exact h.inside hw rfl rfl
    | tag m k => simp only [Threads.exec, hw] at hx; cases hx; exact h.inside hw rfl rfl
    | alloc m k => simp only [Threads.exec, hw] at hx; cases hx; exact h.inside hw rfl rfl
    | act m k => simp only [Threads.exec, hw] at hx; cases hx; exact h.inside hw rfl rfl
    | use m u k => simp only [Threads.exec, hw] at hx; cases hx; exact h.inside hw rfl rfl

theorem LogInv.run {L : Lib} {A : Allocator} {calls : T → List Op} {sched : List T}
    {c c' : Threads T} (h : LogInv c) (hx : c.run L A calls sched = .ok c') : LogInv c' := by
  induction sched generalizing c with
  | nil => cases hx; exact h
  | cons t ts ih =>
    simp only [Threads.run, exec_bind_eq_ok] at hx
    obtain ⟨c1, h1, h2⟩ := hx
    exact ih (h.exec h1) h2

/-- When no call is in progress, all calls that have begun have returned. -/
theorem LogInv.idle {c : Threads T} (h : LogInv c) (hi : AllIdle c) {x : T × Nat}
    (hx : .invoked x ∈ c.log) : ∃ ev, .returned x ev ∈ c.log := by
  obtain ⟨t, k⟩ := x
  obtain ⟨n, hn⟩ := hi t
  have := h.began t k hx
  refine h.returned t k ?_
  rw [hn] at this ⊢
  exact this

/-! ### The bytes on the wire -/

theorem transmits_anonymous (op : Op) (ev : Event) : transmits op (anonymous ev) = transmits op ev := by
  cases op <;> cases ev <;> simp [transmits, anonymous, Function.comp_def]

theorem succeeded_anonymous (ev : Event) : Succeeded (anonymous ev) ↔ Succeeded ev := by
  cases ev <;> exact Iff.rfl

theorem unprotectInto_outC {L : Lib} {f s vs out s' st n o}
    (h : unprotectInto L f s vs out = .ok (s', st, n, o)) : s'.conn.outC = s.conn.outC := by
  unfold unprotectInto at h
  split at h
  · cases h; rfl
  simp only [exec_bind_eq_ok] at h
  obtain ⟨x, _, h⟩ := h
  split at h
  · cases h; rfl
  simp only [exec_bind_eq_ok] at h
  obtain ⟨x, _, h⟩ := h
  split at h
  · cases h; rfl
  simp only [exec_bind_eq_ok, State.crypterUnprotect] at h
  obtain ⟨⟨s1, r⟩, ⟨⟨c1, r1⟩, h0, h1⟩, h2⟩ := h
  have h3 := (Record.unprotect_frame h0).1
  cases h1
  simp only at h2
  split at h2 <;> (cases h2; exact h3)

/-- One call moves the wire on by what it transmits. -/
theorem step_chain {L : Lib} {A : Allocator} (hA : AllocOk A) {a : Record.CreateArgs} {s s' : State}
    {op : Op} {ev : Event} (hr : Record.Reach L a s.conn s.evs) {d : Spec.Dir}
    (hat : At L s.conn.outC d) (h : step L A s op = .ok (s', ev)) (hm : SendsMemory op)
    (hok : protects op = true → Succeeded ev) :
    ∃ d', At L s'.conn.outC d' ∧
      Chain L d ((transmits op ev).map fun x => (x.2, x.1)).toList d' := by
  cases op with
  | protect f vs =>
    simp only [step, exec_bind_eq_ok] at h
    obtain ⟨⟨s1, r⟩, h1, h2⟩ := h
    cases h2
    obtain ⟨s2, res, e, _, _, hcase⟩ := protect_call (A := A) (f := f) (vs := vs) hA hr
    rw [h1] at e
    cases e
    rcases hcase with ⟨_, _, b, hb, _, hall⟩ | ⟨hno, _⟩
    · obtain ⟨q1, q2, q3⟩ := hall d hat
      have hw : AllWF vs := hm
      rw [hw.totalLen_eq] at q1 q2
      refine ⟨_, q1, ?_⟩
      simp only [transmits, Option.map_some, Option.toList_some, hb, List.map_cons, List.map_nil,
        List.flatten_cons, List.flatten_nil, List.append_nil]
      rw [q3 hw]
      exact .message q2 (.nil _)
    · exact absurd (hok rfl) hno
  | protectInto f vs out =>
    obtain ⟨hw, ob, rfl⟩ := hm
    simp only [step, exec_bind_eq_ok] at h
    obtain ⟨⟨s1, st, o⟩, h1, h2⟩ := h
    cases h2
    obtain ⟨s2, st2, ob', e, _, _, _, _, h3, _⟩ :=
      protectInto_call (f := f) (vs := vs) (id := .caller) (ob := ob) hr
    rw [h1] at e
    cases e
    obtain ⟨_, h4⟩ := h3 (hok rfl)
    obtain ⟨q1, q2, q3⟩ := h4 d hat
    have q3 := q3 hw
    rw [hw.totalLen_eq] at q1 q2 q3
    refine ⟨_, q1, ?_⟩
    simp only [transmits, Option.map_some, Option.toList_some, Iovec.bytes]
    rw [q3, List.take_left' (messageRecords_length L d (flat vs))]
    exact .message q2 (.nil _)
  | unprotect f vs =>
    simp only [step, exec_bind_eq_ok] at h
    obtain ⟨⟨s1, r⟩, h1, h2⟩ := h
    cases h2
    exact ⟨d, by rw [unprotect_outC h1]; exact hat, .nil _⟩
  | unprotectInto f vs out =>
    simp only [step, exec_bind_eq_ok] at h
    obtain ⟨⟨s1, st, n, o⟩, h1, h2⟩ := h
    cases h2
    exact ⟨d, by rw [unprotectInto_outC h1]; exact hat, .nil _⟩

theorem run_chain {L : Lib} {A : Allocator} (hA : AllocOk A) {a : Record.CreateArgs} {ops : List Op}
    {s s' : State} {evs : List Event} (hr : Record.Reach L a s.conn s.evs) {d : Spec.Dir}
    (hat : At L s.conn.outC d) (h : run L A s ops = .ok (s', evs))
    (hm : ∀ op ∈ ops, SendsMemory op)
    (hok : ∀ x ∈ ops.zip evs, protects x.1 = true → Succeeded x.2) :
    ∃ d', At L s'.conn.outC d' ∧
      Chain L d ((ops.zip evs).filterMap fun x => (transmits x.1 x.2).map fun x => (x.2, x.1)) d' := by
  induction ops generalizing s evs d with
  | nil => cases h; exact ⟨d, hat, .nil _⟩
  | cons op ops ih =>
    simp only [run, exec_bind_eq_ok] at h
    obtain ⟨⟨s1, e⟩, h1, ⟨s2, es'⟩, h2, h3⟩ := h
    cases h3
    obtain ⟨d1, a1, c1⟩ := step_chain hA hr hat h1 (hm op (by simp)) (hok (op, e) (by simp))
    obtain ⟨o, es, g1, g2⟩ := (step_steps h1).calls
    have hr1 : Record.Reach L a s1.conn s1.evs := by
      rw [g2]; exact hr.run g1
    obtain ⟨d2, a2, c2⟩ := ih hr1 a1 h2 (fun op h => hm op (by simp [h]))
      (fun x hx => hok x (by simp [hx]))
    refine ⟨d2, a2, ?_⟩
    have : ((op :: ops).zip (e :: es')).filterMap
        (fun x => (transmits x.1 x.2).map fun x => (x.2, x.1)) =
        ((transmits op e).map fun x => (x.2, x.1)).toList ++
          (ops.zip es').filterMap fun x => (transmits x.1 x.2).map fun x => (x.2, x.1) := by
      rw [List.zip_cons_cons, List.filterMap_cons]
      cases transmits op e <;> rfl
    rw [this]
    exact c1.append c2

/-- What is on the wire is delivered, message by message. -/
theorem Chain.deliver {L : Lib} {A : Allocator} (hA : AllocOk A) {wire : List (Bytes × Bytes)}
    {d d' : Spec.Dir} (h : Chain L d wire d') {s : State} {ws : List (List Iovec)}
    (hv : ∀ w ∈ ws, Spec.NonEmptyBufs w) (hb : ws.map flat = wire.map (·.1))
    (hat : At L s.conn.inC d) (hr : Ready s.conn) :
    ∃ s' evs, run L A s (ws.map (.unprotect fun _ => .none)) = .ok (s', evs) ∧
      evs.map delivered = wire.map (fun x => some x.2) := by
  induction wire generalizing d s ws with
  | nil =>
    rw [List.map_nil, List.map_eq_nil_iff] at hb
    subst hb
    exact ⟨s, [], rfl, rfl⟩
  | cons x wire ih =>
    obtain ⟨w, m⟩ := x
    cases ws with
    | nil => cases hb
    | cons v ws =>
      simp only [List.map_cons, List.cons.injEq] at hb
      obtain ⟨s1, bufs, d1, e1, e2, e3, e4, e5⟩ := h.receive hA (f := fun _ => .none)
        (fun _ => rfl) (hv v (by simp)) hb.1 hat hr
      obtain ⟨s2, evs, g1, g2⟩ := ih e5 (fun w hw => hv w (by simp [hw])) hb.2 e3 e4
      refine ⟨s2, .result ⟨.ok, bufs⟩ :: evs, ?_, ?_⟩
      · simp only [List.map_cons, run, step, e1, exec_bind_ok]
        simp [g1]
      · simp only [List.map_cons, g2, delivered, if_true, e2]

/-! ### Lists -/

theorem earlier_filter {α : Type} {l : List α} {a b : α} {p : α → Bool} (h : Earlier l a b)
    (ha : p a = true) (hb : p b = true) : Earlier (l.filter p) a b := by
  obtain ⟨l1, l2, l3, rfl⟩ := h
  refine ⟨l1.filter p, l2.filter p, l3.filter p, ?_⟩
  simp [List.filter_append, ha, hb]

theorem zip_functional {α β : Type} {l : List α} {m : List β} (h : l.Nodup) {x : α} {a b : β}
    (ha : (x, a) ∈ l.zip m) (hb : (x, b) ∈ l.zip m) : a = b := by
  induction l generalizing m with
  | nil => simp at ha
  | cons y l ih =>
    cases m with
    | nil => simp at ha
    | cons c m =>
      rw [List.nodup_cons] at h
      simp only [List.zip_cons_cons, List.mem_cons, Prod.mk.injEq] at ha hb
      rcases ha with ⟨rfl, rfl⟩ | ha <;> rcases hb with ⟨e, rfl⟩ | hb
      · rfl
      · exact absurd (List.of_mem_zip hb).1 h.1
      · subst e; exact absurd (List.of_mem_zip ha).1 h.1
      · exact ih h.2 ha hb

/-- Is the call one of `Protect`? -/
def sendsCall (calls : T → List Op) (x : T × Nat) : Bool := ((calls x.1)[x.2]?).any protects

/-- The messages sent by calls made in some order. -/
def sentBy (order : List (T × Nat)) (ops : List Op) (evs : List Event) : List (Spec.Sent T) :=
  (order.zip (ops.zip evs)).filterMap fun x =>
    (transmits x.2.1 x.2.2).map fun y => ⟨x.1, y.1, y.2⟩

theorem sentBy_spec {calls : T → List Op} {order : List (T × Nat)} {ops : List Op}
    {evs : List Event} (h : order.map (fun x => (calls x.1)[x.2]?) = ops.map some)
    (hl : evs.length = ops.length)
    (ht : ∀ x ∈ ops.zip evs, (transmits x.1 x.2).isSome = protects x.1) :
    (sentBy order ops evs).map (·.call) = order.filter (sendsCall calls) ∧
    (sentBy order ops evs).map (fun x => (x.buffer, x.message)) =
      ((ops.zip evs).filterMap fun x => (transmits x.1 x.2).map fun x => (x.2, x.1)) ∧
    (∀ x ∈ sentBy order ops evs, ∃ op ev, (calls x.call.1)[x.call.2]? = some op ∧
      transmits op ev = some (x.message, x.buffer) ∧ (x.call, ev) ∈ order.zip evs) ∧
    (∀ x ∈ ops.zip evs, ∃ c, (c, x.2) ∈ order.zip evs ∧ (calls c.1)[c.2]? = some x.1) := by
  induction order generalizing ops evs with
  | nil =>
    have : ops = [] := by simpa using h.symm
    subst this
    simp [sentBy]
  | cons c order ih =>
    cases ops with
    | nil => simp at h
    | cons op ops =>
      cases evs with
      | nil => simp at hl
      | cons ev evs =>
        simp only [List.map_cons, List.cons.injEq] at h
        obtain ⟨i1, i2, i3, i4⟩ := ih h.2 (by simpa using hl) (fun x hx => ht x (by simp [hx]))
        have ht0 := ht (op, ev) (by simp)
        simp only at ht0
        have hsc : sendsCall calls c = protects op := by simp [sendsCall, h.1]
        have hcons : sentBy (c :: order) (op :: ops) (ev :: evs) =
            ((transmits op ev).map fun y => (⟨c, y.1, y.2⟩ : Spec.Sent T)).toList ++
              sentBy order ops evs := by
          simp only [sentBy, List.zip_cons_cons, List.filterMap_cons]
          cases transmits op ev <;> rfl
        refine ⟨?_, ?_, ?_, ?_⟩
        · rw [hcons, List.map_append, i1, List.filter_cons, hsc, ← ht0]
          cases transmits op ev <;> rfl
        · rw [hcons, List.map_append, i2, List.zip_cons_cons, List.filterMap_cons]
          cases transmits op ev <;> rfl
        · intro x hx
          rw [hcons, List.mem_append] at hx
          rcases hx with hx | hx
          · refine ⟨op, ev, ?_⟩
            cases he : transmits op ev with
            | none => rw [he] at hx; simp at hx
            | some y =>
              rw [he] at hx
              simp only [Option.map_some, Option.toList_some, List.mem_singleton] at hx
              subst hx
              exact ⟨h.1, rfl, by simp⟩
          · obtain ⟨op', ev', j1, j2, j3⟩ := i3 x hx
            exact ⟨op', ev', j1, j2, by simp [j3]⟩
        · intro x hx
          rw [List.zip_cons_cons, List.mem_cons] at hx
          rcases hx with rfl | hx
          · exact ⟨c, by simp, h.1⟩
          · obtain ⟨c', j1, j2⟩ := i4 x hx
            exact ⟨c', by simp [j1], j2⟩

theorem step_transmits {L : Lib} {A : Allocator} {s s' : State} {op : Op} {ev : Event}
    (h : step L A s op = .ok (s', ev)) : (transmits op ev).isSome = protects op := by
  cases op <;>
    (simp only [step, exec_bind_eq_ok] at h
     obtain ⟨_, _, h2⟩ := h
     cases h2
     rfl)

theorem run_transmits {L : Lib} {A : Allocator} {ops : List Op} {s s' : State} {evs : List Event}
    (h : run L A s ops = .ok (s', evs)) : evs.length = ops.length ∧
      ∀ x ∈ ops.zip evs, (transmits x.1 x.2).isSome = protects x.1 := by
  induction ops generalizing s evs with
  | nil => cases h; simp
  | cons op ops ih =>
    simp only [run, exec_bind_eq_ok] at h
    obtain ⟨⟨s1, e⟩, h1, ⟨s2, es'⟩, h2, h3⟩ := h
    cases h3
    obtain ⟨i1, i2⟩ := ih h2
    refine ⟨by simp [i1], ?_⟩
    intro x hx
    simp only [List.zip_cons_cons, List.mem_cons] at hx
    rcases hx with rfl | hx
    · exact step_transmits h1
    · exact i2 x hx

end S2A.Frame
