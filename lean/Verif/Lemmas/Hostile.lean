import Verif.Lemmas.Senders
import Verif.Lemmas.FrameLoss
import Verif.Spec.Hostile
/-
Threads at both ends of a connection: what the order of the calls says about the calls of a kind.
-/
namespace S2A.Frame
open HalfConn (exec_bind_eq_ok)
open Spec (Precedes Earlier AllIdle Linearizes protects unprotects Succeeded anonymous CallOrder
  message bytesHandedOut handedPieces sentBytes receivedBytes receivedPieces fragments sentData
  AllocOk SendsOk ReceivesOk Unforged KeysDistinct)
variable {T : Type} [DecidableEq T]

/-- The calls of a kind in an order, with a value each. -/
def pick {β : Type} (kind : Op → Bool) (val : Op → Event → β) (order : List (T × Nat))
    (ops : List Op) (evs : List Event) : List ((T × Nat) × β) :=
  (order.zip (ops.zip evs)).filterMap fun x =>
    if kind x.2.1 then some (x.1, val x.2.1 x.2.2) else none

omit [DecidableEq T] in
theorem pick_cons {β : Type} {kind : Op → Bool} {val : Op → Event → β} {c : T × Nat}
    {order : List (T × Nat)} {op : Op} {ops : List Op} {ev : Event} {evs : List Event} :
    pick kind val (c :: order) (op :: ops) (ev :: evs) =
      (if kind op then [(c, val op ev)] else []) ++ pick kind val order ops evs := by
  simp only [pick, List.zip_cons_cons, List.filterMap_cons]
  split <;> simp_all

omit [DecidableEq T] in
theorem pick_spec {β : Type} {calls : T → List Op} {kind : Op → Bool} {val : Op → Event → β}
    {order : List (T × Nat)} {ops : List Op} {evs : List Event}
    (h : order.map (fun x => (calls x.1)[x.2]?) = ops.map some) (hl : evs.length = ops.length) :
    (pick kind val order ops evs).map (·.1) =
      order.filter (fun x => ((calls x.1)[x.2]?).any kind) ∧
    (∀ x ∈ pick kind val order ops evs, ∃ op ev, (calls x.1.1)[x.1.2]? = some op ∧
      (x.1, ev) ∈ order.zip evs ∧ val op ev = x.2) ∧
    (∀ x ∈ ops.zip evs, ∃ c, (c, x.2) ∈ order.zip evs ∧ (calls c.1)[c.2]? = some x.1) := by
  induction order generalizing ops evs with
  | nil =>
    have : ops = [] := by simpa using h.symm
    subst this
    simp [pick]
  | cons c order ih =>
    cases ops with
    | nil => simp at h
    | cons op ops =>
      cases evs with
      | nil => simp at hl
      | cons ev evs =>
        simp only [List.map_cons, List.cons.injEq] at h
        obtain ⟨i1, i2, i3⟩ := ih h.2 (by simpa using hl)
        refine ⟨?_, ?_, ?_⟩
        · rw [pick_cons, List.map_append, i1, List.filter_cons, h.1]
          cases hk : kind op <;> simp [hk]
        · intro x hx
          rw [pick_cons, List.mem_append] at hx
          rcases hx with hx | hx
          · split at hx
            · rw [List.mem_singleton] at hx
              subst hx
              exact ⟨op, ev, h.1, by simp, rfl⟩
            · cases hx
          · obtain ⟨op', ev', j1, j2, j3⟩ := i2 x hx
            exact ⟨op', ev', j1, by simp [j2], j3⟩
        · intro x hx
          rw [List.zip_cons_cons, List.mem_cons] at hx
          rcases hx with rfl | hx
          · exact ⟨c, by simp, h.1⟩
          · obtain ⟨c', j1, j2⟩ := i3 x hx
            exact ⟨c', by simp [j1], j2⟩

/-- The calls of a kind, in the order that explains the results of all calls. -/
theorem pick_order {β : Type} {L : Lib} {A A' : Allocator} {calls : T → List Op} {s0 s : State}
    {c : Threads T} {order : List (T × Nat)} {ops : List Op} {evs : List Event}
    (kind : Op → Bool) (val : Op → Event → β) (hval : ∀ op ev, val op (anonymous ev) = val op ev)
    (hlin : Linearizes L A calls s0 c order) (hlog : LogInv c) (hi : AllIdle c)
    (h1 : order.map (fun x => (calls x.1)[x.2]?) = ops.map some)
    (h2 : run L A' s0 ops = .ok (s, evs))
    (h3 : ∀ x ev, .returned x ev ∈ c.log → (x, ev) ∈ order.zip (evs.map anonymous)) :
    CallOrder calls c.log kind ((pick kind val order ops evs).map (·.1)) ∧
    (∀ x ∈ pick kind val order ops evs, ∃ op ev, (calls x.1.1)[x.1.2]? = some op ∧
      .returned x.1 ev ∈ c.log ∧ val op ev = x.2) ∧
    (∀ x ∈ ops.zip evs, ∃ y, (calls y.1)[y.2]? = some x.1 ∧
      .returned y (anonymous x.2) ∈ c.log) := by
  obtain ⟨q1, q2, q3⟩ := pick_spec (kind := kind) (val := val) h1 (run_transmits h2).1
  have hzip : ∀ x ev, (x, ev) ∈ order.zip evs → .returned x (anonymous ev) ∈ c.log := by
    intro x ev hz
    obtain ⟨ev', hev⟩ := hlog.idle hi (hlin.began x (List.of_mem_zip hz).1)
    have hz' : (x, anonymous ev) ∈ order.zip (evs.map anonymous) := by
      rw [List.zip_map_right]
      exact List.mem_map.2 ⟨_, hz, rfl⟩
    rw [zip_functional hlin.nodup hz' (h3 x ev' hev)]
    exact hev
  have hmem : ∀ x, x ∈ (pick kind val order ops evs).map (·.1) ↔
      x ∈ order ∧ ((calls x.1)[x.2]?).any kind = true := by
    intro x; rw [q1, List.mem_filter]
  have hreal : ∀ a ∈ (pick kind val order ops evs).map (·.1),
      ∀ b ∈ (pick kind val order ops evs).map (·.1), Precedes c.log a b →
      Earlier ((pick kind val order ops evs).map (·.1)) a b := by
    intro a ha b hb hab
    rw [hmem] at ha hb
    rw [q1]
    exact earlier_filter (hlin.realTime a b hab hb.1) ha.2 hb.2
  refine ⟨⟨?_, ?_, hreal, ?_⟩, ?_, ?_⟩
  · rw [q1]; exact hlin.nodup.filter _
  · intro x
    rw [hmem, Option.any_eq_true]
    constructor
    · rintro ⟨hx, op, hop, hk⟩
      exact ⟨⟨op, hop, hk⟩, hlog.idle hi (hlin.began x hx)⟩
    · rintro ⟨⟨op, hop, hk⟩, ev, hev⟩
      exact ⟨(List.of_mem_zip (h3 x ev hev)).1, op, hop, hk⟩
  · intro t m n hm hn hlt
    exact hreal _ hm _ hn (hlog.inOrder t m n hlt (hlin.began _ ((hmem _).1 hn).1))
  · intro x hx
    obtain ⟨op, ev, j1, j2, j3⟩ := q2 x hx
    exact ⟨op, _, j1, hzip _ _ j2, by rw [hval]; exact j3⟩
  · intro x hx
    obtain ⟨y, j1, j2⟩ := q3 x hx
    exact ⟨y, j2, hzip _ _ j1⟩

/-- Every call in the order was made by a thread. -/
theorem made_by {U : Type} {cs : U → List Op} {or : List (U × Nat)} {os : List Op} {op : Op}
    (h : or.map (fun x => (cs x.1)[x.2]?) = os.map some) (hop : op ∈ os) : ∃ t, op ∈ cs t := by
  have : some op ∈ or.map (fun x => (cs x.1)[x.2]?) := by
    rw [h]; exact List.mem_map.2 ⟨op, hop, rfl⟩
  obtain ⟨x, _, hx⟩ := List.mem_map.1 this
  exact ⟨x.1, List.mem_of_getElem? hx⟩

theorem bytesHandedOut_anonymous (ev : Event) : bytesHandedOut (anonymous ev) = bytesHandedOut ev := by
  cases ev <;> simp [bytesHandedOut, anonymous, Function.comp_def]

omit [DecidableEq T] in
theorem pick_sent {order : List (T × Nat)} {ops : List Op} {evs : List Event}
    (ho : order.length = ops.length) (hl : evs.length = ops.length) :
    ((pick protects (fun op _ => message op) order ops evs).map (·.2)).flatten =
      sentBytes ops := by
  induction ops generalizing order evs with
  | nil =>
    have : order = [] := List.length_eq_zero_iff.1 ho
    subst this
    rfl
  | cons op ops ih =>
    obtain ⟨c, order, rfl⟩ := List.exists_cons_of_length_eq_add_one ho
    obtain ⟨ev, evs, rfl⟩ := List.exists_cons_of_length_eq_add_one hl
    rw [pick_cons, List.map_append, List.flatten_append,
      ih (by simpa using ho) (by simpa using hl)]
    cases op <;> simp [protects, message, sentBytes]

theorem step_shape {L : Lib} {A : Allocator} {s s' : State} {op : Op} {ev : Event}
    (h : step L A s op = .ok (s', ev)) : receivedBytes [op] [ev] =
      if unprotects op then bytesHandedOut ev else [] := by
  cases op <;>
    (simp only [step, exec_bind_eq_ok] at h
     obtain ⟨_, _, h2⟩ := h
     cases h2
     simp [receivedBytes, unprotects, bytesHandedOut])

omit [DecidableEq T] in
theorem pick_received {L : Lib} {A : Allocator} {order : List (T × Nat)} {ops : List Op}
    {evs : List Event} {s s' : State} (ho : order.length = ops.length)
    (h : run L A s ops = .ok (s', evs)) :
    ((pick unprotects (fun _ ev => bytesHandedOut ev) order ops evs).map (·.2)).flatten =
      receivedBytes ops evs := by
  induction ops generalizing order evs s with
  | nil =>
    have : order = [] := List.length_eq_zero_iff.1 ho
    subst this
    cases h
    rfl
  | cons op ops ih =>
    simp only [run, exec_bind_eq_ok] at h
    obtain ⟨⟨s1, e⟩, h1, ⟨s2, es'⟩, h2, h3⟩ := h
    cases h3
    obtain ⟨c, order, rfl⟩ := List.exists_cons_of_length_eq_add_one ho
    rw [pick_cons, List.map_append, List.flatten_append, ih (by simpa using ho) h2,
      receivedBytes_cons, step_shape h1]
    split <;> simp

theorem handedPieces_anonymous (ev : Event) : handedPieces (anonymous ev) = handedPieces ev := by
  cases ev <;> simp [handedPieces, anonymous, Function.comp_def]

theorem step_pieces_shape {L : Lib} {A : Allocator} {s s' : State} {op : Op} {ev : Event}
    (h : step L A s op = .ok (s', ev)) : receivedPieces [op] [ev] =
      if unprotects op then handedPieces ev else [] := by
  cases op <;>
    (simp only [step, exec_bind_eq_ok] at h
     obtain ⟨_, _, h2⟩ := h
     cases h2
     simp [receivedPieces, unprotects, handedPieces])

omit [DecidableEq T] in
theorem pick_pieces {L : Lib} {A : Allocator} {order : List (T × Nat)} {ops : List Op}
    {evs : List Event} {s s' : State} (ho : order.length = ops.length)
    (h : run L A s ops = .ok (s', evs)) :
    (pick unprotects (fun _ ev => handedPieces ev) order ops evs).flatMap (·.2) =
      receivedPieces ops evs := by
  induction ops generalizing order evs s with
  | nil =>
    have : order = [] := List.length_eq_zero_iff.1 ho
    subst this
    cases h
    rfl
  | cons op ops ih =>
    simp only [run, exec_bind_eq_ok] at h
    obtain ⟨⟨s1, e⟩, h1, ⟨s2, es'⟩, h2, h3⟩ := h
    cases h3
    obtain ⟨c, order, rfl⟩ := List.exists_cons_of_length_eq_add_one ho
    rw [pick_cons, List.flatMap_append, ih (by simpa using ho) h2,
      receivedPieces_cons, step_pieces_shape h1]
    split <;> simp

/-! ### Fragments -/

theorem protectLoop_fragments {L : Lib} {f id fuel i s vs on first rem idx out s' st o}
    (hc : CurLe vs on) (hrem : rem + on = totalLen vs) (hw : AllWF vs)
    (h : protectLoop L f id fuel i s vs on first rem idx out = .ok (s', st, o)) :
    ∃ ops evs, Sim L s s' ops evs ∧
      sentData ops evs <+: if first || rem > 0 then fragments (ahead vs on) else [] := by
  induction fuel generalizing i s vs on first rem idx out with
  | zero => cases h
  | succ fuel ih =>
    unfold protectLoop at h
    have hal : (ahead vs on).length = rem := by
      have := hw.totalLen_eq
      simp [ahead]; omega
    split at h
    case isFalse hgo =>
      cases h
      exact ⟨[], [], .refl _, List.nil_prefix⟩
    next hgo =>
    simp only [exec_bind_eq_ok] at h
    have hle : (if rem < kMaxPlaintext then rem else kMaxPlaintext) ≤ rem := by
      simp only [kMaxPlaintext]; split <;> omega
    have hn : (if rem < kMaxPlaintext then rem else kMaxPlaintext) = min rem 16384 := by
      simp only [kMaxPlaintext]; split <;> omega
    generalize (if rem < kMaxPlaintext then rem else kMaxPlaintext) = n at h hle hn
    obtain ⟨⟨ps, vs', on'⟩, h0, room, _, slot, _, ⟨s1, r⟩, h1, h2⟩ := h
    obtain ⟨ps', vs'', on'', k1, k2, k3, k4, k5⟩ := collect_spec vs on n hc (by omega)
    rw [h0] at k1
    cases k1
    obtain ⟨w1, w2, w3, w4⟩ := k5 hw
    simp only [State.crypterProtect, exec_bind_eq_ok] at h1
    obtain ⟨⟨c, r'⟩, h1, h3⟩ := h1
    cases h3
    simp only at h2
    have hsim : ∀ m : List MemEvent, Sim L s
        { s with conn := c, evs := s.evs ++ [.sealed r'], mem := m }
        [.protect (f i) .applicationData ps slot] [.sealed r'] := fun m =>
      ⟨by simp [Record.run, Record.step, h1], rfl, fun op ho => by
        rw [List.mem_singleton.1 ho]; exact ⟨trivial, rfl⟩⟩
    have hif : (if (first || decide (rem > 0)) = true then fragments (ahead vs on) else []) =
        fragments (ahead vs on) := if_pos hgo
    have hfr : fragments (ahead vs on) = flat ps ::
        (if (false || decide (rem - n > 0)) = true then fragments (ahead vs' on') else []) := by
      by_cases hl : 16384 < (ahead vs on).length
      · have e : n = 16384 := by omega
        rw [fragments_long hl, w3, w4, e, if_pos (by simp; omega)]
      · have e : n = rem := by omega
        rw [fragments_short (by omega), w3, if_neg (by simp; omega), e,
          List.take_of_length_le (by omega)]
    have hone : ∀ (t : List Bytes), t = (if (false || decide (rem - n > 0)) = true then
        fragments (ahead vs' on') else []) →
        sentData [.protect (f i) .applicationData ps slot] [.sealed r'] <+: flat ps :: t := by
      intro t _
      simp only [sentData]
      split
      · exact ⟨t, rfl⟩
      · exact List.nil_prefix
    rw [hif, hfr]
    split at h2
    · cases h2
      exact ⟨_, _, hsim _, hone _ rfl⟩
    next hok =>
    split at h2
    · cases h2
      exact ⟨_, _, hsim _, hone _ rfl⟩
    · obtain ⟨ops, evs, q1, q2⟩ := ih k3 (by omega) w2 h2
      refine ⟨_, _, (hsim s.mem).trans q1, ?_⟩
      have hok : r'.code = .ok := Classical.not_not.1 hok
      rw [sentData_append rfl]
      simp only [sentData, hok, if_true, List.singleton_append]
      exact (List.prefix_cons_inj _).2 q2

/-- The messages given to `Protect`, in fragments. -/
def givenFragments (ops : List Op) : List Bytes :=
  ops.flatMap fun op => if protects op then fragments (message op) else []

theorem given_filter (ops : List Op) :
    ((ops.filter protects).flatMap fun op => fragments (message op)) = givenFragments ops := by
  induction ops with
  | nil => rfl
  | cons op ops ih =>
    have : givenFragments (op :: ops) = givenFragments [op] ++ givenFragments ops := by
      simp [givenFragments]
    rw [this, ← ih, List.filter_cons]
    cases hp : protects op <;> simp [givenFragments, hp]

theorem step_fragments {L : Lib} {A : Allocator} (hA : AllocOk A) {s op s' ev}
    (hv : Spec.ValidFrameArgs op) (h : step L A s op = .ok (s', ev)) :
    ∃ rops revs, Sim L s s' rops revs ∧ (sentData rops revs).Sublist (givenFragments [op]) := by
  have start : ∀ {vs : List Iovec}, ahead vs 0 = flat vs := by intro vs; simp [ahead]
  cases op with
  | protect f vs =>
    simp only [step, protect, State.alloc, protectInto, exec_bind_eq_ok] at h
    obtain ⟨⟨s1, r⟩, ⟨⟨s2, st, o⟩, h1, h2⟩, h3⟩ := h
    cases h3
    obtain ⟨ops, evs, q1, q2⟩ := protectLoop_fragments (curLe_start vs) (Nat.add_zero _) hv h1
    have : ∀ m : List MemEvent, Sim L s { s2 with mem := m } ops evs :=
      fun m => ⟨q1.run, q1.evs, q1.valid⟩
    have hq : (sentData ops evs).Sublist (givenFragments [.protect f vs]) := by
      simpa [givenFragments, protects, message, start, Nat.eq_zero_or_pos] using q2.sublist
    simp only at h2
    split at h2 <;> (cases h2; exact ⟨ops, evs, this _, hq⟩)
  | protectInto f vs out =>
    simp only [step, protectInto, exec_bind_eq_ok] at h
    obtain ⟨⟨s2, st, o⟩, h1, h2⟩ := h
    cases h2
    obtain ⟨ops, evs, q1, q2⟩ := protectLoop_fragments (curLe_start vs) (Nat.add_zero _) hv h1
    exact ⟨ops, evs, q1, by simpa [givenFragments, protects, message, start, Nat.eq_zero_or_pos] using q2.sublist⟩
  | unprotect f vs =>
    simp only [step, exec_bind_eq_ok] at h
    obtain ⟨⟨s1, r⟩, h1, h2⟩ := h
    cases h2
    unfold unprotect at h1
    simp only at h1
    split at h1
    · cases h1
      exact ⟨[], [], .refl _, List.nil_sublist _⟩
    · obtain ⟨ops, evs, q1, q2, _⟩ := unprotectLoop_received hA h1
      exact ⟨ops, evs, q1, by rw [q2]; exact List.nil_sublist _⟩
  | unprotectInto f vs out =>
    simp only [step, exec_bind_eq_ok] at h
    obtain ⟨⟨s1, st, n, o⟩, h1, h2⟩ := h
    cases h2
    obtain ⟨ops, evs, q1, q2, _⟩ := unprotectInto_received hv h1
    exact ⟨ops, evs, q1, by rw [q2]; exact List.nil_sublist _⟩

/-- Whatever fails, the records a protector makes carry fragments of the messages, in order. -/
theorem run_fragments {L : Lib} {A : Allocator} (hA : AllocOk A) {s ops s' evs}
    (hv : ∀ op ∈ ops, Spec.ValidFrameArgs op) (h : run L A s ops = .ok (s', evs)) :
    ∃ rops revs, Sim L s s' rops revs ∧ (sentData rops revs).Sublist (givenFragments ops) := by
  induction ops generalizing s evs with
  | nil => cases h; exact ⟨[], [], .refl _, List.nil_sublist _⟩
  | cons op ops ih =>
    simp only [run, exec_bind_eq_ok] at h
    obtain ⟨⟨s1, e⟩, h1, ⟨s2, es⟩, h2, h3⟩ := h
    cases h3
    obtain ⟨o1, e1, a1, a2⟩ := step_fragments hA (hv _ List.mem_cons_self) h1
    obtain ⟨o2, e2, b1, b2⟩ := ih (fun o ho => hv o (List.mem_cons_of_mem _ ho)) h2
    refine ⟨o1 ++ o2, e1 ++ e2, a1.trans b1, ?_⟩
    rw [sentData_append (run_length a1.run)]
    have : givenFragments (op :: ops) = givenFragments [op] ++ givenFragments ops := by
      simp [givenFragments]
    rw [this]
    exact a2.append b2

omit [DecidableEq T] in
theorem pick_fragments {order : List (T × Nat)} {ops : List Op} {evs : List Event}
    (ho : order.length = ops.length) (hl : evs.length = ops.length) :
    (pick protects (fun op _ => message op) order ops evs).flatMap (fun x => fragments x.2) =
      givenFragments ops := by
  induction ops generalizing order evs with
  | nil =>
    have : order = [] := List.length_eq_zero_iff.1 ho
    subst this
    rfl
  | cons op ops ih =>
    obtain ⟨c, order, rfl⟩ := List.exists_cons_of_length_eq_add_one ho
    obtain ⟨ev, evs, rfl⟩ := List.exists_cons_of_length_eq_add_one hl
    have : givenFragments (op :: ops) = givenFragments [op] ++ givenFragments ops := by
      simp [givenFragments]
    rw [pick_cons, List.flatMap_append, ih (by simpa using ho) (by simpa using hl), this]
    cases hp : protects op <;> simp [givenFragments, hp]

theorem sendsOk_of {ops : List Op} {evs : List Event}
    (h : ∀ x ∈ ops.zip evs, protects x.1 = true → Succeeded x.2) : SendsOk ops evs := by
  induction ops generalizing evs with
  | nil => trivial
  | cons op ops ih =>
    cases evs with
    | nil => cases op <;> trivial
    | cons ev evs =>
      have h0 := h (op, ev) (by simp)
      have ht := ih (evs := evs) (fun x hx => h x (by simp [hx]))
      cases op
      · exact ⟨h0 rfl, ht⟩
      · exact ⟨h0 rfl, ht⟩
      · exact ht
      · exact ht

theorem receivesOk_of {ops : List Op} {evs : List Event}
    (h : ∀ x ∈ ops.zip evs, unprotects x.1 = true → Succeeded x.2) : ReceivesOk ops evs := by
  induction ops generalizing evs with
  | nil => trivial
  | cons op ops ih =>
    cases evs with
    | nil => cases op <;> trivial
    | cons ev evs =>
      have h0 := h (op, ev) (by simp)
      have ht := ih (evs := evs) (fun x hx => h x (by simp [hx]))
      cases op
      · exact ht
      · exact ht
      · exact ⟨h0 rfl, ht⟩
      · exact ⟨h0 rfl, ht⟩

/-! ### What depends on one direction only -/

theorem seals_filter (evs : List Record.Event) :
    Spec.seals (evs.filter (·.isOut)) = Spec.seals evs := by
  induction evs with
  | nil => rfl
  | cons e evs ih =>
    cases e with
    | opened r => rw [List.filter_cons_of_neg (by simp [Record.Event.isOut])]; exact ih
    | _ => rw [List.filter_cons_of_pos rfl]; simp only [Spec.seals, ih]

theorem opens_filter (evs : List Record.Event) :
    Spec.opens (evs.filter (!·.isOut)) = Spec.opens evs := by
  induction evs with
  | nil => rfl
  | cons e evs ih =>
    cases e with
    | opened r => rw [List.filter_cons_of_pos rfl]; simp only [Spec.opens, ih]
    | _ => rw [List.filter_cons_of_neg (by simp [Record.Event.isOut])]; exact ih

theorem outTrace_filter (evs : List Record.Event) :
    Record.outTrace (evs.filter (·.isOut)) = Record.outTrace evs := by
  induction evs with
  | nil => rfl
  | cons e evs ih =>
    cases e with
    | opened r => rw [List.filter_cons_of_neg (by simp [Record.Event.isOut])]; exact ih
    | sealed r => rw [List.filter_cons_of_pos rfl]; simp only [Record.outTrace, ih]
    | outboundUpdated st =>
      rw [List.filter_cons_of_pos rfl]
      cases st <;> simp only [Record.outTrace, ih]

theorem inTrace_filter (evs : List Record.Event) :
    Record.inTrace (evs.filter (!·.isOut)) = Record.inTrace evs := by
  induction evs with
  | nil => rfl
  | cons e evs ih =>
    cases e with
    | opened r => rw [List.filter_cons_of_pos rfl]; simp only [Record.inTrace, ih]
    | _ => rw [List.filter_cons_of_neg (by simp [Record.Event.isOut])]; exact ih

/-- Two lists of events that are the same in each direction. -/
structure SameDirections (e e' : List Record.Event) : Prop where
  out : e.filter (·.isOut) = e'.filter (·.isOut)
  inn : e.filter (!·.isOut) = e'.filter (!·.isOut)

theorem unforged_same {e1 e1' e2 e2' : List Record.Event} (h1 : SameDirections e1 e1')
    (h2 : SameDirections e2 e2') (h : Unforged e1' e2') : Unforged e1 e2 := by
  unfold Unforged at h ⊢
  rw [← seals_filter e1', ← seals_filter e2', ← opens_filter e2', ← h1.out, ← h2.out, ← h2.inn,
    seals_filter, seals_filter, opens_filter] at h
  exact h

theorem keysDistinct_same {L : Lib} {su : Spec.Suite} {b : Record.CreateArgs}
    {e1 e1' e2 e2' : List Record.Event} (h1 : SameDirections e1 e1')
    (h2 : SameDirections e2 e2') (h : KeysDistinct L su b e1' e2') : KeysDistinct L su b e1 e2 := by
  obtain ⟨g1, g2⟩ := h
  rw [← outTrace_filter, ← inTrace_filter e2', ← h1.out, ← h2.inn, outTrace_filter,
    inTrace_filter] at g1
  rw [← outTrace_filter, ← inTrace_filter e2', ← h2.out, ← h2.inn, outTrace_filter,
    inTrace_filter] at g2
  exact ⟨g1, g2⟩

end S2A.Frame
