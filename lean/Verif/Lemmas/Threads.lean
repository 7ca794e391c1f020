import Verif.Lemmas.ThreadsLocks
import Verif.Lemmas.FrameReach
/-
Calls of several threads behave as if made one after the other: the invariant.

A call takes effect when it releases its mutex of the frame protector, or when it returns if it
takes none.
-/
namespace S2A.Frame
open Record (emap emap_eq_ok)
open HalfConn (exec_bind_eq_ok)
open Spec (Exclusive FaultsSequentially anonymous Precedes Earlier AllIdle Linearizes unprotects unprotectsInto)
variable {T : Type} [DecidableEq T]

/-- A call that took effect, and its result. -/
abbrev Done (T : Type) := (T × Nat) × Event

/-- Does a call, made by thread `t`, own its direction? -/
def Op.Owns (op : Op) (holder : Mu → Option T) (t : T) : Prop :=
  holder op.dir.mu = some t ∨ unprotectsInto op = true

/-- How thread `t`, which allocated the buffers `as` in its call, stands to the calls that took
effect. -/
def Status (L : Lib) (A : Allocator) (calls : T → List Op) (c0 : Record.Conn)
    (lin : List (Done T)) (sL sC : Shared) (holder : Mu → Option T) (t : T) (as : List Nat) :
    Where → Prop
  | .idle _ => True
  | .inside n p => ∃ op, (calls t)[n]? = some op ∧
      ((∃ ev, p = .done ev ∧ ((t, n), ev) ∈ lin ∧ ¬ op.Owns holder t) ∨
       ((t, n) ∉ lin.map (·.1) ∧ ¬ op.Owns holder t ∧
          ∀ x, CallSteps A op.dir (op.prog L) x as p x) ∨
       ((t, n) ∉ lin.map (·.1) ∧ op.Owns holder t ∧
          CallSteps A op.dir (op.prog L) (sL.view c0 op.dir) as p (sC.view c0 op.dir)))

/-- Does thread `t` own the direction `d`? -/
def Owner (calls : T → List Op) (holder : Mu → Option T) (t : T) (d : Half) : Where → Prop
  | .idle _ => False
  | .inside n _ => ∃ op, (calls t)[n]? = some op ∧ op.dir = d ∧ op.Owns holder t

theorem owns_congr {op : Op} {holder holder' : Mu → Option T} {t : T}
    (hh : ∀ d : Half, holder' d.mu = some t ↔ holder d.mu = some t) :
    op.Owns holder' t ↔ op.Owns holder t := or_congr (hh _) Iff.rfl

theorem owner_congr {calls : T → List Op} {holder holder' : Mu → Option T} {t : T} {d : Half}
    {w : Where} (hh : ∀ d : Half, holder' d.mu = some t ↔ holder d.mu = some t) :
    Owner calls holder' t d w ↔ Owner calls holder t d w := by
  cases w with
  | idle n => exact Iff.rfl
  | inside n p =>
    exact exists_congr fun op => and_congr Iff.rfl (and_congr Iff.rfl (owns_congr hh))

theorem Status.frame {L : Lib} {A : Allocator} {calls : T → List Op} {c0 : Record.Conn}
    {lin lin' : List (Done T)} {sL sC sL' sC' : Shared} {holder holder' : Mu → Option T} {t : T}
    {as : List Nat} {w : Where} (h : Status L A calls c0 lin sL sC holder t as w)
    (hh : ∀ d : Half, holder' d.mu = some t ↔ holder d.mu = some t)
    (hl : ∀ n, (t, n) ∈ lin'.map (·.1) → (t, n) ∈ lin.map (·.1))
    (hm : ∀ x ∈ lin, x ∈ lin')
    (hv : ∀ d, Owner calls holder t d w →
      sL'.view c0 d = sL.view c0 d ∧ sC'.view c0 d = sC.view c0 d) :
    Status L A calls c0 lin' sL' sC' holder' t as w := by
  cases w with
  | idle n => trivial
  | inside n p =>
    obtain ⟨op, hop, h | h | h⟩ := h
    · obtain ⟨ev, h1, h2, h3⟩ := h
      exact ⟨op, hop, .inl ⟨ev, h1, hm _ h2, fun ho => h3 ((owns_congr hh).mp ho)⟩⟩
    · obtain ⟨h1, h2, h3⟩ := h
      exact ⟨op, hop, .inr (.inl ⟨fun hx => h1 (hl _ hx),
        fun ho => h2 ((owns_congr hh).mp ho), h3⟩)⟩
    · obtain ⟨h1, h2, h5⟩ := h
      refine ⟨op, hop, .inr (.inr ⟨fun hx => h1 (hl _ hx), (owns_congr hh).mpr h2, ?_⟩)⟩
      obtain ⟨e1, e2⟩ := hv op.dir ⟨op, hop, rfl, h2⟩
      rw [e1, e2]
      exact h5

/-- The index of the next call of a thread. -/
def Where.next : Where → Nat
  | .idle n => n
  | .inside n _ => n + 1

theorem upd_same {α β : Type} [DecidableEq α] (f : α → β) (a : α) : upd f a (f a) = f := by
  funext x
  by_cases h : x = a
  · subst h; exact upd_self ..
  · exact upd_other _ _ h

/-- The buffers allocated by calls that took effect and by those that have not: no two are the
same. -/
structure Apiece (lo hi : Nat) (idx : List Nat) (pend : T → List Nat) : Prop where
  done : idx.Nodup
  doneIn : ∀ i ∈ idx, lo ≤ i ∧ i < hi
  nodup : ∀ t, (pend t).Nodup
  within : ∀ t, ∀ i ∈ pend t, lo ≤ i ∧ i < hi
  notDone : ∀ t, ∀ i ∈ pend t, i ∉ idx
  disjoint : ∀ t t', t ≠ t' → ∀ i ∈ pend t, i ∉ pend t'
  le : lo ≤ hi

theorem Apiece.drop {lo hi : Nat} {idx : List Nat} {pend : T → List Nat}
    (h : Apiece lo hi idx pend) (t : T) : Apiece lo hi idx (upd pend t []) := by
  have e : ∀ u, ∀ i ∈ upd pend t [] u, u ≠ t ∧ i ∈ pend u := by
    intro u i hi
    by_cases hu : u = t
    · subst hu; simp [upd_self] at hi
    · rw [upd_other _ _ hu] at hi; exact ⟨hu, hi⟩
  refine ⟨h.done, h.doneIn, fun u => ?_, fun u i hi => h.within u i (e u i hi).2,
    fun u i hi => h.notDone u i (e u i hi).2,
    fun u u' hne i hi hi' => h.disjoint u u' hne i (e u i hi).2 (e u' i hi').2, h.le⟩
  by_cases hu : u = t
  · subst hu; rw [upd_self]; exact List.nodup_nil
  · rw [upd_other _ _ hu]; exact h.nodup u

theorem Apiece.commit {lo hi : Nat} {idx : List Nat} {pend : T → List Nat}
    (h : Apiece lo hi idx pend) (t : T) : Apiece lo hi (idx ++ pend t) (upd pend t []) := by
  have hd := h.drop t
  refine ⟨List.nodup_append.mpr ⟨h.done, h.nodup t, ?_⟩, ?_, hd.nodup, hd.within, ?_, hd.disjoint,
    h.le⟩
  · rintro a ha b hb rfl
    exact h.notDone t a hb ha
  · intro i hi
    rcases List.mem_append.mp hi with hi | hi
    · exact h.doneIn i hi
    · exact h.within t i hi
  · intro u i hi hm
    rcases List.mem_append.mp hm with hm | hm
    · exact hd.notDone u i hi hm
    · by_cases hu : u = t
      · subst hu; simp [upd_self] at hi
      · rw [upd_other _ _ hu] at hi
        exact h.disjoint u t hu i hi hm

theorem Apiece.alloc {lo hi : Nat} {idx : List Nat} {pend : T → List Nat}
    (h : Apiece lo hi idx pend) (t : T) :
    Apiece lo (hi + 1) idx (upd pend t (pend t ++ [hi])) := by
  have e : ∀ u, ∀ i ∈ upd pend t (pend t ++ [hi]) u, i ∈ pend u ∨ (u = t ∧ i = hi) := by
    intro u i hm
    by_cases hu : u = t
    · subst hu
      rw [upd_self] at hm
      rcases List.mem_append.mp hm with hm | hm
      · exact .inl hm
      · exact .inr ⟨rfl, List.mem_singleton.mp hm⟩
    · rw [upd_other _ _ hu] at hm; exact .inl hm
  refine ⟨h.done, fun i hm => ?_, fun u => ?_, fun u i hm => ?_, fun u i hm hd => ?_,
    fun u u' hne i hm hm' => ?_, Nat.le_succ_of_le h.le⟩
  · have := h.doneIn i hm; omega
  · by_cases hu : u = t
    · subst hu
      rw [upd_self]
      refine List.nodup_append.mpr ⟨h.nodup u, by simp, ?_⟩
      rintro a ha b hb rfl
      have := h.within u a ha
      have := List.mem_singleton.mp hb
      omega
    · rw [upd_other _ _ hu]; exact h.nodup u
  · rcases e u i hm with hm | ⟨_, rfl⟩
    · have := h.within u i hm; omega
    · have := h.le; omega
  · rcases e u i hm with hm | ⟨_, rfl⟩
    · exact h.notDone u i hm hd
    · have := h.doneIn i hd; omega
  · rcases e u i hm with h1 | ⟨h1, h2⟩
    · rcases e u' i hm' with h3 | ⟨_, h4⟩
      · exact h.disjoint u u' hne i h1 h3
      · have := h.within u i h1; omega
    · rcases e u' i hm' with h3 | ⟨h3, _⟩
      · have := h.within u' i h3; omega
      · exact hne (h1.trans h3.symm)

/-- The buffer that the `i`-th allocation gets if the calls are made one after the other. -/
def renumber (lo hi : Nat) (idx : List Nat) (i : Nat) : Nat :=
  if i < lo then i else idx.getD (i - lo) (hi + i)

theorem renumber_injective {lo hi : Nat} {idx : List Nat} (hn : idx.Nodup)
    (hin : ∀ i ∈ idx, lo ≤ i ∧ i < hi) (hle : lo ≤ hi) (i j : Nat)
    (h : renumber lo hi idx i = renumber lo hi idx j) : i = j := by
  have key : ∀ k, lo ≤ k → (∃ hk : k - lo < idx.length, renumber lo hi idx k = idx[k - lo]) ∨
      renumber lo hi idx k = hi + k := by
    intro k hk
    unfold renumber
    rw [if_neg (by omega)]
    by_cases hl : k - lo < idx.length
    · exact .inl ⟨hl, by simp [List.getD, hl]⟩
    · exact .inr (by simp [List.getD, hl])
  have low : ∀ k, k < lo → renumber lo hi idx k = k := fun k hk => by
    unfold renumber; rw [if_pos hk]
  by_cases hi' : i < lo <;> by_cases hj : j < lo
  · rwa [low i hi', low j hj] at h
  · rw [low i hi'] at h
    rcases key j (by omega) with ⟨hk, e⟩ | e
    · have := hin _ (List.getElem_mem hk); rw [e] at h; omega
    · rw [e] at h; omega
  · rw [low j hj] at h
    rcases key i (by omega) with ⟨hk, e⟩ | e
    · have := hin _ (List.getElem_mem hk); rw [e] at h; omega
    · rw [e] at h; omega
  · rcases key i (by omega) with ⟨hk, e⟩ | e <;> rcases key j (by omega) with ⟨hk', e'⟩ | e' <;>
      rw [e, e'] at h
    · have := (List.getElem_inj hn).mp h; omega
    · have := hin _ (List.getElem_mem hk); omega
    · have := hin _ (List.getElem_mem hk'); omega
    · omega

theorem renumber_agree (A : Allocator) (lo hi : Nat) (idx : List Nat) :
    Agree A (fun i => A (renumber lo hi idx i)) lo idx := by
  intro j i hj
  have : ¬ lo + j < lo := by omega
  simp [renumber, this, List.getD, Nat.add_sub_cancel_left, hj]

/-- The facts of the invariant that concern only the order. -/
structure Lin (L : Lib) (A : Allocator) (calls : T → List Op) (s0 : State) (log : List (Obs T))
    (lin : List (Done T)) (ops : List Op) (idx : List Nat) (sL : Shared) : Prop where
  nodup : (lin.map (·.1)).Nodup
  ops_eq : (lin.map (·.1)).map (fun x => (calls x.1)[x.2]?) = ops.map some
  runs : ∀ A', Agree A A' s0.next idx → ∃ s evs, Frame.run L A' s0 ops = .ok (s, evs) ∧
    s.shared = sL ∧ evs.map anonymous = lin.map (·.2)
  nextL : sL.next = s0.next + idx.length
  realTime : ∀ a b, Precedes log a b → b ∈ lin.map (·.1) → Earlier (lin.map (·.1)) a b
  began : ∀ x ∈ lin.map (·.1), .invoked x ∈ log
  ret : ∀ x ev, .returned x ev ∈ log → (x, ev) ∈ lin

/-- The invariant. -/
structure Inv (L : Lib) (A : Allocator) (calls : T → List Op) (s0 : State) (c : Threads T)
    (lin : List (Done T)) (ops : List Op) (idx : List Nat) (sL : Shared) (pend : T → List Nat) :
    Prop where
  order : Lin L A calls s0 c.log lin ops idx sL
  fresh : ∀ t k, .invoked (t, k) ∈ c.log → k < (c.place t).next
  inLog : ∀ t n p, c.place t = .inside n p → .invoked (t, n) ∈ c.log
  sync : ∀ d, (∀ t, ¬ Owner calls c.holder t d (c.place t)) →
    sL.view s0.conn d = c.shared.view s0.conn d
  status : ∀ t, Status L A calls s0.conn lin sL c.shared c.holder t (pend t) (c.place t)
  apiece : Apiece s0.next c.shared.next idx pend
  locks : LockInv (fun _ _ _ => True) calls c

theorem inv_init (L : Lib) (A : Allocator) (calls : T → List Op) (s0 : State) :
    Inv L A calls s0 (Threads.init s0) [] [] [] s0.shared (fun _ => []) where
  order := ⟨List.nodup_nil, rfl, fun A' _ => ⟨s0, [], rfl, rfl, rfl⟩, rfl,
    fun a b h hb => by simp at hb, fun x hx => by simp at hx,
    fun x ev h => by simp [Threads.init] at h⟩
  fresh := fun t k h => by simp [Threads.init] at h
  inLog := fun t n p h => by simp [Threads.init] at h
  sync := fun d _ => rfl
  status := fun t => trivial
  apiece := ⟨List.nodup_nil, fun i h => by simp at h, fun t => List.nodup_nil,
    fun t i h => by simp at h, fun t i h => by simp at h, fun t t' _ i h => by simp at h,
    Nat.le_refl _⟩
  locks := LockInv.init _ _ _

/-! ### Lists -/

theorem precedes_snoc_returned {log : List (Obs T)} {a b x : T × Nat} {ev : Event}
    (h : Precedes (log ++ [.returned x ev]) a b) : Precedes log a b := by
  obtain ⟨l1, l2, l3, e, h⟩ := h
  rcases List.eq_nil_or_concat l3 with rfl | ⟨l3', z, rfl⟩
  · have := (List.append_inj' h rfl).2
    cases this
  · rw [List.concat_eq_append, show l1 ++ Obs.returned a e :: l2 ++ Obs.invoked b :: (l3' ++ [z]) =
      (l1 ++ Obs.returned a e :: l2 ++ Obs.invoked b :: l3') ++ [z] by simp] at h
    exact ⟨l1, l2, l3', e, (List.append_inj' h rfl).1⟩

theorem precedes_snoc_invoked {log : List (Obs T)} {a b x : T × Nat}
    (h : Precedes (log ++ [.invoked x]) a b) : Precedes log a b ∨ b = x := by
  obtain ⟨l1, l2, l3, e, h⟩ := h
  rcases List.eq_nil_or_concat l3 with rfl | ⟨l3', z, rfl⟩
  · have := (List.append_inj' h rfl).2
    cases this
    exact .inr rfl
  · rw [List.concat_eq_append, show l1 ++ Obs.returned a e :: l2 ++ Obs.invoked b :: (l3' ++ [z]) =
      (l1 ++ Obs.returned a e :: l2 ++ Obs.invoked b :: l3') ++ [z] by simp] at h
    exact .inl ⟨l1, l2, l3', e, (List.append_inj' h rfl).1⟩

theorem precedes_returned {log : List (Obs T)} {a b : T × Nat} (h : Precedes log a b) :
    ∃ ev, .returned a ev ∈ log := by
  obtain ⟨l1, l2, l3, e, rfl⟩ := h
  exact ⟨e, by simp⟩

theorem earlier_snoc {α : Type} {l : List α} {a b : α} (x : α) (h : Earlier l a b) :
    Earlier (l ++ [x]) a b := by
  obtain ⟨l1, l2, l3, rfl⟩ := h
  exact ⟨l1, l2, l3 ++ [x], by simp⟩

theorem earlier_last {α : Type} {l : List α} {a : α} (x : α) (h : a ∈ l) :
    Earlier (l ++ [x]) a x := by
  obtain ⟨l1, l2, rfl⟩ := List.append_of_mem h
  exact ⟨l1, l2, [], by simp⟩

/-! ### A call takes effect -/

theorem Lin.extend {L : Lib} {A : Allocator} {calls : T → List Op} {s0 : State}
    {log : List (Obs T)} {lin ops idx sL} (h : Lin L A calls s0 log lin ops idx sL) {t : T} {n : Nat}
    {op : Op} {as : List Nat} {ev : Event} {y : Side} (hop : (calls t)[n]? = some op)
    (hnew : (t, n) ∉ lin.map (·.1)) (hlog : .invoked (t, n) ∈ log)
    (hs : CallSteps A op.dir (op.prog L) (sL.view s0.conn op.dir) as (.done ev) y) :
    ∃ sL' : Shared, sL'.view s0.conn op.dir = y ∧
      (∀ e, e ≠ op.dir → sL'.view s0.conn e = sL.view s0.conn e) ∧
      Lin L A calls s0 log (lin ++ [((t, n), ev)]) (ops ++ [op]) (idx ++ as) sL' := by
  obtain ⟨sL', h1, h2, h3, h4⟩ := hs.alone (c0 := s0.conn) (s := sL) rfl
  refine ⟨sL', h1, h2, ?_, ?_, ?_, ?_, ?_, ?_, ?_⟩
  · rw [List.map_append]
    refine List.nodup_append.mpr ⟨h.nodup, by simp, ?_⟩
    intro a ha b hb
    simp only [List.map_cons, List.map_nil, List.mem_singleton] at hb
    subst hb
    rintro rfl
    exact hnew ha
  · simp only [List.map_append, List.map_cons, List.map_nil, hop]
    rw [h.ops_eq]
  · intro A' hA
    obtain ⟨s, evs, e1, e2, e3⟩ := h.runs A' hA.append_left
    have hA2 := hA.append_right
    rw [← h.nextL] at hA2
    have := h4 A' hA2
    rw [← e2, prog_alone] at this
    simp only [Prog.alone] at this
    obtain ⟨⟨s', ev'⟩, e4, e5⟩ := emap_eq_ok.mp this
    simp only [Prod.mk.injEq] at e5
    refine ⟨s', evs ++ [ev'], run_append e1 (s2 := s') (e2 := [ev']) ?_, e5.1, ?_⟩
    · simp only [run, e4, exec_bind_ok]; rfl
    · simp [e3, e5.2]
  · rw [h3, h.nextL, List.length_append, Nat.add_assoc]
  · intro a b hab hb
    rw [List.map_append, List.mem_append] at hb
    rw [List.map_append]
    rcases hb with hb | hb
    · exact earlier_snoc _ (h.realTime a b hab hb)
    · simp only [List.map_cons, List.map_nil, List.mem_singleton] at hb
      subst hb
      obtain ⟨e, he⟩ := precedes_returned hab
      exact earlier_last _ (List.mem_map.mpr ⟨_, h.ret _ _ he, rfl⟩)
  · intro x hx
    rw [List.map_append, List.mem_append] at hx
    rcases hx with hx | hx
    · exact h.began x hx
    · simp only [List.map_cons, List.map_nil, List.mem_singleton] at hx
      subst hx; exact hlog
  · intro x e hx
    exact List.mem_append_left _ (h.ret x e hx)

/-! ### Steps -/

/-- A step inside of a call. -/
theorem Inv.internal {L : Lib} {A : Allocator} {calls : T → List Op} {s0 : State}
    {c : Threads T} {lin ops idx sL pend} (h : Inv L A calls s0 c lin ops idx sL pend) {t : T} {n : Nat}
    {p p' : Prog Event} (hp : c.place t = .inside n p) {lin' : List (Done T)} {ops' idx'}
    {sL' sC' : Shared} {holder' : Mu → Option T} {us}
    (hlin : Lin L A calls s0 c.log lin' ops' idx' sL')
    (hsub : ∀ x ∈ lin, x ∈ lin')
    (hnew : ∀ x ∈ lin'.map (·.1), x ∈ lin.map (·.1) ∨ x.1 = t)
    (hh : ∀ t', t' ≠ t → ∀ m, holder' m = some t' ↔ c.holder m = some t')
    (hv : ∀ t', t' ≠ t → ∀ d, Owner calls c.holder t' d (c.place t') →
      sL'.view s0.conn d = sL.view s0.conn d ∧
        sC'.view s0.conn d = c.shared.view s0.conn d)
    (hsync : ∀ d, ¬ Owner calls holder' t d (.inside n p') →
      (∀ t', t' ≠ t → ¬ Owner calls c.holder t' d (c.place t')) →
      sL'.view s0.conn d = sC'.view s0.conn d)
    {pend' : T → List Nat} (hpend : ∀ t', t' ≠ t → pend' t' = pend t')
    (hap : Apiece s0.next sC'.next idx' pend')
    (hst : Status L A calls s0.conn lin' sL' sC' holder' t (pend' t) (.inside n p'))
    (hlock : LockInv (fun _ _ _ => True) calls
      ⟨sC', holder', upd c.place t (.inside n p'), c.log, us⟩) :
    Inv L A calls s0 ⟨sC', holder', upd c.place t (.inside n p'), c.log, us⟩
      lin' ops' idx' sL' pend' where
  order := hlin
  fresh := fun t' k hk => by
    have := h.fresh t' k hk
    by_cases e : t' = t
    · subst e
      rw [hp] at this
      simpa [Where.next] using this
    · simpa only [upd_other _ _ e] using this
  inLog := fun t' n' q hq => by
    by_cases e : t' = t
    · subst e
      simp only [upd_self, Where.inside.injEq] at hq
      rw [← hq.1]
      exact h.inLog t' n p hp
    · simp only [upd_other _ _ e] at hq
      exact h.inLog t' n' q hq
  sync := fun d hd => by
    refine hsync d ?_ fun t' e ho => ?_
    · have := hd t
      simpa only [upd_self] using this
    · refine hd t' ?_
      show Owner calls holder' t' d (upd c.place t _ t')
      rw [upd_other _ _ e]
      exact (owner_congr fun d => hh t' e _).mpr ho
  status := fun t' => by
    by_cases e : t' = t
    · subst e
      simpa only [upd_self] using hst
    · simp only [upd_other _ _ e, hpend t' e]
      refine (h.status t').frame (fun d => hh t' e _) ?_ hsub (hv t' e)
      intro k hk
      rcases hnew _ hk with hk | hk
      · exact hk
      · exact absurd hk e
  apiece := hap
  locks := hlock

/-- A call takes effect in a step of its thread. -/
theorem mem_lin_snoc {lin : List (Done T)} {t : T} {n : Nat} {ev : Event} :
    ∀ x ∈ (lin ++ [((t, n), ev)]).map (·.1), x ∈ lin.map (·.1) ∨ x.1 = t := by
  intro x hx
  rw [List.map_append, List.mem_append] at hx
  rcases hx with hx | hx
  · exact .inl hx
  · simp only [List.map_cons, List.map_nil, List.mem_singleton] at hx
    subst hx; exact .inr rfl

/-- Nobody is in the non-allocating `Unprotect` while somebody else is in `Unprotect`. -/
def Apart (calls : T → List Op) (c : Threads T) : Prop :=
  ∀ t t' n n' p p' op op', t ≠ t' → c.place t = .inside n p → c.place t' = .inside n' p' →
    (calls t)[n]? = some op → (calls t')[n']? = some op' →
    unprotectsInto op = true → unprotects op' = false

theorem unprotects_of_dir {op : Op} (h : op.dir = .inbound) : unprotects op = true := by
  cases op <;> first | rfl | cases h

theorem unprotects_of_into {op : Op} (h : unprotectsInto op = true) :
    unprotects op = true ∧ op.dir = .inbound := by
  cases op <;> first | exact ⟨rfl, rfl⟩ | cases h

/-- An owner is inside a call of its direction. -/
theorem Owner.call {calls : T → List Op} {holder : Mu → Option T} {t : T} {d : Half} {w : Where}
    (h : Owner calls holder t d w) : ∃ n p op, w = .inside n p ∧ (calls t)[n]? = some op ∧
      op.dir = d ∧ op.Owns holder t := by
  cases w with
  | idle n => exact h.elim
  | inside n p =>
    obtain ⟨op, h1, h2, h3⟩ := h
    exact ⟨n, p, op, rfl, h1, h2, h3⟩

/-- A direction has one owner, and none but a call that takes no mutex while there is one. -/
theorem no_owner {calls : T → List Op} {c : Threads T} (hmode : Apart calls c) {t t' : T}
    (hne : t' ≠ t) {n : Nat} {p : Prog Event} {op : Op} (hp : c.place t = .inside n p)
    (hop : (calls t)[n]? = some op)
    (ho : unprotectsInto op = true ∨ c.holder op.dir.mu = some t ∨ c.holder op.dir.mu = none) :
    ¬ Owner calls c.holder t' op.dir (c.place t') := by
  intro h
  obtain ⟨n', p', op', h1, h2, h3, h4⟩ := h.call
  rcases h4 with h4 | h4
  · rcases ho with ho | ho | ho
    · have := hmode t t' n n' p p' op op' (Ne.symm hne) hp h1 hop h2 ho
      rw [unprotects_of_dir (h3.trans (unprotects_of_into ho).2)] at this
      cases this
    · rw [h3, ho] at h4; exact hne (Option.some.inj h4).symm
    · rw [h3, ho] at h4; cases h4
  · have := hmode t' t n' n p' p op' op hne h1 hp h2 hop h4
    rw [unprotects_of_dir (h3.symm.trans (unprotects_of_into h4).2)] at this
    cases this

/-- A step keeps the invariant. -/
theorem Inv.exec {L : Lib} {A : Allocator} {calls : T → List Op} {s0 : State}
    {c c' : Threads T} {lin ops idx sL pend} (h : Inv L A calls s0 c lin ops idx sL pend)
    (hmode : Apart calls c) {t : T} (hx : c.exec L A calls t = .ok c')
    (hmode' : Apart calls c') :
    ∃ lin' ops' idx' sL' pend', Inv L A calls s0 c' lin' ops' idx' sL' pend' := by
  have hst := h.status t
  have hlk := h.locks t
  have hlk' := h.locks.exec (fun _ => Closed.trivial L) hx
  cases hw : c.place t with
  | idle n =>
    cases hop : (calls t)[n]? with
    | none =>
      simp only [Threads.exec, hw, hop, Except.ok.injEq] at hx
      subst hx
      exact ⟨lin, ops, idx, sL, pend, h⟩
    | some op =>
      simp only [Threads.exec, hw, hop, Except.ok.injEq] at hx
      subst hx
      rw [hw] at hlk
      have hnotin : Obs.invoked (t, n) ∉ c.log := fun hin => by
        have := h.fresh t n hin
        rw [hw] at this
        exact Nat.lt_irrefl _ this
      have hnotlin : (t, n) ∉ lin.map (·.1) := fun hin => hnotin (h.order.began _ hin)
      refine ⟨lin, ops, idx, sL, upd pend t [], ⟨h.order.nodup, h.order.ops_eq, h.order.runs,
        h.order.nextL, ?_, ?_, ?_⟩, ?_, ?_, ?_, ?_, h.apiece.drop t, hlk'⟩
      · intro a b hab hb
        rcases precedes_snoc_invoked hab with hab | rfl
        · exact h.order.realTime a b hab hb
        · exact absurd hb hnotlin
      · exact fun x hx => List.mem_append_left _ (h.order.began x hx)
      · intro x ev hx
        rw [List.mem_append] at hx
        rcases hx with hx | hx
        · exact h.order.ret x ev hx
        · simp at hx
      · intro t' k hk
        rw [List.mem_append] at hk
        by_cases e : t' = t
        · subst e
          simp only [upd_self, Where.next]
          rcases hk with hk | hk
          · have := h.fresh t' k hk
            rw [hw] at this
            simp only [Where.next] at this
            omega
          · simp only [List.mem_singleton, Obs.invoked.injEq, Prod.mk.injEq] at hk
            omega
        · simp only [upd_other _ _ e]
          rcases hk with hk | hk
          · exact h.fresh t' k hk
          · simp only [List.mem_singleton, Obs.invoked.injEq, Prod.mk.injEq] at hk
            exact absurd hk.1 e
      · intro t' k q hq
        by_cases e : t' = t
        · subst e
          simp only [upd_self, Where.inside.injEq] at hq
          rw [← hq.1]
          exact List.mem_append_right _ (List.mem_singleton.mpr rfl)
        · simp only [upd_other _ _ e] at hq
          exact List.mem_append_left _ (h.inLog t' k q hq)
      · intro d hd
        refine h.sync d fun t' ho => ?_
        by_cases e : t' = t
        · subst e; rw [hw] at ho; exact ho
        · have := hd t'
          simp only [upd_other _ _ e] at this
          exact this ho
      · intro t'
        by_cases e : t' = t
        · subst e
          simp only [upd_self]
          refine ⟨op, hop, ?_⟩
          by_cases hown : unprotectsInto op = true
          · refine .inr (.inr ⟨hnotlin, .inr hown, ?_⟩)
            rw [h.sync op.dir fun t2 ho => ?_]
            · exact .refl _ _
            · by_cases e : t2 = t'
              · subst e; rw [hw] at ho; exact ho
              · refine no_owner hmode' e (n := n) (p := op.prog L) (upd_self ..) hop
                  (.inl hown) ?_
                show Owner calls c.holder t2 op.dir (upd c.place t' _ t2)
                rw [upd_other _ _ e]; exact ho
          · exact .inr (.inl ⟨hnotlin, fun ho => ho.elim (hlk _) hown, fun x => .refl _ x⟩)
        · simp only [upd_other _ _ e]
          exact h.status t'
  | inside n p =>
    rw [hw] at hst hlk
    have hlog := h.inLog t n p hw
    obtain ⟨op, hop, hst⟩ := hst
    obtain ⟨op2, hop2, taken, hl, hstage, hti, hheld⟩ := hlk
    obtain rfl : op = op2 := by rw [hop] at hop2; exact Option.some.inj hop2
    have hmu : c.holder op.dir.mu = some t ↔ taken = true := (hheld _).trans held_mu
    have hown : op.Owns c.holder t ↔ taken = true ∨ unprotectsInto op = true :=
      or_congr hmu Iff.rfl
    -- who owns its direction is alone there
    have halone : op.Owns c.holder t → ∀ t', t' ≠ t →
        ¬ Owner calls c.holder t' op.dir (c.place t') := fun ho t' e =>
      no_owner hmode e hw hop (ho.elim (fun h => .inr (.inl h)) .inl)
    have hothers : ∀ d, d ≠ op.dir →
        (∀ t', t' ≠ t → ¬ Owner calls c.holder t' d (c.place t')) →
        sL.view s0.conn d = c.shared.view s0.conn d := by
      intro d hd hn
      refine h.sync d fun t' ho => ?_
      by_cases e : t' = t
      · subst e
        rw [hw] at ho
        obtain ⟨op', h1, h2, _⟩ := ho
        rw [hop] at h1; cases h1
        exact hd h2.symm
      · exact hn t' e ho
    have hsame : ∀ d, ¬ Owner calls c.holder t d (c.place t) →
        (∀ t', t' ≠ t → ¬ Owner calls c.holder t' d (c.place t')) →
        sL.view s0.conn d = c.shared.view s0.conn d := by
      intro d h1 h2
      refine h.sync d fun t' ho => ?_
      by_cases e : t' = t
      · subst e; exact h1 ho
      · exact h2 t' e ho
    have hplace : ∀ d p', Owner calls c.holder t d (.inside n p') ↔
        Owner calls c.holder t d (c.place t) := by intro d p'; rw [hw]; exact Iff.rfl
    -- a step that neither changes a mutex nor the connection
    have quiet : ∀ (p' : Prog Event) (us) (sC' : Shared) (bs : List Nat),
        (∀ d, sC'.view s0.conn d = c.shared.view s0.conn d) → (∀ ev, p ≠ .done ev) →
        (∀ x, CallSteps A op.dir p x bs p' x) →
        Apiece s0.next sC'.next idx (upd pend t (pend t ++ bs)) →
        LockInv (fun _ _ _ => True) calls
          ⟨sC', c.holder, upd c.place t (.inside n p'), c.log, us⟩ →
        Inv L A calls s0 ⟨sC', c.holder, upd c.place t (.inside n p'), c.log, us⟩
          lin ops idx sL (upd pend t (pend t ++ bs)) := by
      intro p' us sC' bs hv hnd hcs hap hlk'
      refine h.internal hw h.order (fun _ hx => hx) (fun _ hx => .inl hx)
        (fun _ _ _ => Iff.rfl) (fun _ _ d _ => ⟨rfl, hv d⟩)
        (fun d h1 h2 => (hsame d (fun ho => h1 ((hplace d p').mpr ho)) h2).trans (hv d).symm)
        (fun _ e => upd_other _ _ e) hap ⟨op, hop, ?_⟩ hlk'
      rcases hst with ⟨ev', he, _⟩ | ⟨hnl, hno, hs⟩ | ⟨hnl, ho, hs⟩
      · exact absurd he (hnd ev')
      · rw [upd_self]
        exact .inr (.inl ⟨hnl, hno, fun x => (hs x).trans (hcs x)⟩)
      · refine .inr (.inr ⟨hnl, ho, ?_⟩)
        rw [hv, upd_self]
        exact hs.trans (hcs _)
    cases p with
    | done ev =>
      simp only [Threads.exec, hw, Except.ok.injEq] at hx
      subst hx
      -- the call has taken effect, or takes effect now
      have key : ∃ lin' ops' idx' sL', Lin L A calls s0 c.log lin' ops' idx' sL' ∧
          Apiece s0.next c.shared.next idx' (upd pend t []) ∧
          (∀ x ∈ lin, x ∈ lin') ∧ (∀ x ∈ lin'.map (·.1), x ∈ lin.map (·.1) ∨ x.1 = t) ∧
          ((t, n), ev) ∈ lin' ∧
          (∀ d, (∀ t', t' ≠ t → ¬ Owner calls c.holder t' d (c.place t')) →
            sL'.view s0.conn d = c.shared.view s0.conn d) ∧
          ∀ t' d, t' ≠ t → Owner calls c.holder t' d (c.place t') →
            sL'.view s0.conn d = sL.view s0.conn d := by
        have hnot : ¬ op.Owns c.holder t → ∀ d, ¬ Owner calls c.holder t d (c.place t) := by
          intro hn d ho
          rw [hw] at ho
          obtain ⟨op', h1, _, h3⟩ := ho
          rw [hop] at h1; cases h1
          exact hn h3
        rcases hst with ⟨ev', he, hin, hno⟩ | ⟨hnl, hno, hs⟩ | ⟨hnl, ho, hs⟩
        · cases he
          exact ⟨lin, ops, idx, sL, h.order, h.apiece.drop t, fun _ hx => hx, fun _ hx => .inl hx, hin,
            fun d hd => hsame d (hnot hno d) hd, fun _ _ _ _ => rfl⟩
        · obtain ⟨sL', h1, h2, h3⟩ := h.order.extend hop hnl hlog (hs _)
          have hv : ∀ d, sL'.view s0.conn d = sL.view s0.conn d := by
            intro d
            by_cases hd : d = op.dir
            · subst hd; exact h1
            · exact h2 d hd
          exact ⟨_, _, _, sL', h3, h.apiece.commit t, fun _ hx => List.mem_append_left _ hx, mem_lin_snoc,
            List.mem_append_right _ (List.mem_singleton.mpr rfl),
            fun d hd => (hv d).trans (hsame d (hnot hno d) hd), fun _ d _ _ => hv d⟩
        · obtain ⟨sL', h1, h2, h3⟩ := h.order.extend hop hnl hlog hs
          refine ⟨_, _, _, sL', h3, h.apiece.commit t, fun _ hx => List.mem_append_left _ hx, mem_lin_snoc,
            List.mem_append_right _ (List.mem_singleton.mpr rfl), fun d hd => ?_,
            fun t' d e ho' => h2 d ?_⟩
          · by_cases e : d = op.dir
            · subst e; exact h1
            · exact (h2 d e).trans (hothers d e hd)
          · rintro rfl; exact halone ho t' e ho'
      obtain ⟨lin', ops', idx', sL', hl, hap, hsub, hnew, hin, hv, hv'⟩ := key
      refine ⟨lin', ops', idx', sL', upd pend t [],
        ⟨hl.nodup, hl.ops_eq, hl.runs, hl.nextL, ?_, ?_, ?_⟩, ?_, ?_, ?_, ?_, hap, hlk'⟩
      · exact fun a b hab hb => hl.realTime a b (precedes_snoc_returned hab) hb
      · exact fun x hx => List.mem_append_left _ (hl.began x hx)
      · intro x e hx
        rw [List.mem_append] at hx
        rcases hx with hx | hx
        · exact hl.ret x e hx
        · simp only [List.mem_singleton, Obs.returned.injEq] at hx
          obtain ⟨rfl, rfl⟩ := hx
          exact hin
      · intro t' k hk
        rw [List.mem_append] at hk
        rcases hk with hk | hk
        · have := h.fresh t' k hk
          by_cases e : t' = t
          · subst e
            rw [hw] at this
            simpa [Where.next] using this
          · simpa only [upd_other _ _ e] using this
        · simp at hk
      · intro t' k q hq
        by_cases e : t' = t
        · subst e
          simp at hq
        · simp only [upd_other _ _ e] at hq
          exact List.mem_append_left _ (h.inLog t' k q hq)
      · intro d hd
        refine hv d fun t' e ho => ?_
        have := hd t'
        simp only [upd_other _ _ e] at this
        exact this ho
      · intro t'
        by_cases e : t' = t
        · subst e
          simp only [upd_self]
          trivial
        · simp only [upd_other _ _ e]
          refine (h.status t').frame (fun _ => Iff.rfl) ?_ hsub fun d ho => ⟨hv' t' d e ho, rfl⟩
          intro k hk
          rcases hnew _ hk with hk | hk
          · exact hk
          · exact absurd hk e
    | ub e => simp only [Threads.exec, hw] at hx; cases hx
    | acquire m k =>
      simp only [Threads.exec, hw] at hx
      cases hm : c.holder m with
      | some u =>
        simp only [hm, Except.ok.injEq] at hx
        subst hx
        exact ⟨lin, ops, idx, sL, pend, h⟩
      | none =>
        simp only [hm, Except.ok.injEq] at hx
        subst hx
        rcases hstage with ⟨rfl, hi, rfl, rfl, _⟩ | ⟨rfl, hi, rfl, _⟩
        · -- the mutex of the frame protector
          have hno : ¬ op.Owns c.holder t := fun ho => by
            rcases hown.mp ho with e | e
            · cases e
            · rw [hi] at e; cases e
          have hfree : ∀ t', t' ≠ t → ¬ Owner calls c.holder t' op.dir (c.place t') :=
            fun t' e => no_owner hmode e hw hop (.inr (.inr hm))
          have hsy := hsame op.dir (fun ho => by
            rw [hw] at ho
            obtain ⟨op', h1, _, h3⟩ := ho
            rw [hop] at h1; cases h1
            exact hno h3) hfree
          have hmine : op.Owns (upd c.holder op.dir.mu (some t)) t := .inl (upd_self ..)
          refine ⟨lin, ops, idx, sL, pend, h.internal hw h.order (fun _ hx => hx) (fun _ hx => .inl hx)
            (acquire_frame hm) (fun _ _ _ _ => ⟨rfl, rfl⟩) ?_ (fun _ _ => rfl) h.apiece ?_ hlk'⟩
          · intro d hd hn
            by_cases e : d = op.dir
            · subst e; exact hsy
            · exact hothers d e hn
          · refine ⟨op, hop, .inr (.inr ?_)⟩
            rcases hst with ⟨ev', he, _⟩ | ⟨hnl, _, hs⟩ | ⟨_, ho, _⟩
            · cases he
            · refine ⟨hnl, hmine, ?_⟩
              rw [hsy]
              have := (hs (c.shared.view s0.conn op.dir)).trans
                (.acquire (.refl k (c.shared.view s0.conn op.dir)))
              rwa [List.append_nil] at this
            · exact absurd ho hno
        · -- the mutex of the half connection
          have hmu' : ∀ d : Half, upd c.holder (.half op.dir) (some t) d.mu = c.holder d.mu :=
            fun d => upd_other _ _ (d.mu_ne_half _)
          have ho := hown.mpr hi
          have ho' : op.Owns (upd c.holder (.half op.dir) (some t)) t :=
            (owns_congr fun d => by rw [hmu']).mpr ho
          refine ⟨lin, ops, idx, sL, pend, h.internal hw h.order (fun _ hx => hx) (fun _ hx => .inl hx)
            (acquire_frame hm) (fun _ _ _ _ => ⟨rfl, rfl⟩) ?_ (fun _ _ => rfl) h.apiece ?_ hlk'⟩
          · intro d hd hn
            by_cases e : d = op.dir
            · subst e; exact absurd ⟨op, hop, rfl, ho'⟩ hd
            · exact hothers d e hn
          · refine ⟨op, hop, .inr (.inr ?_)⟩
            rcases hst with ⟨ev', he, _⟩ | ⟨_, hno, _⟩ | ⟨hnl, _, hs⟩
            · cases he
            · exact absurd ho hno
            · refine ⟨hnl, ho', ?_⟩
              have := hs.trans (.acquire (.refl k _))
              rwa [List.append_nil] at this
    | release m k =>
      simp only [Threads.exec, hw, Except.ok.injEq] at hx
      subst hx
      rcases hstage with ⟨rfl, rfl, rfl, ev, rfl⟩ | ⟨rfl, hi, rfl, _⟩
      · have hme := hmu.mpr rfl
        have ho : op.Owns c.holder t := .inl hme
        have hni := hti rfl
        rcases hst with ⟨ev', he, _⟩ | ⟨_, hno, _⟩ | ⟨hnl, _, hs⟩
        · cases he
        · exact absurd ho hno
        · have hs' := hs.trans (.release (.refl _ _))
          rw [List.append_nil] at hs'
          obtain ⟨sL', h1, h2, h3⟩ := h.order.extend hop hnl hlog hs'
          refine ⟨_, _, _, sL', upd pend t [], h.internal hw h3
            (fun _ hx => List.mem_append_left _ hx) mem_lin_snoc (release_frame hme) ?_ ?_
            (fun _ e => upd_other _ _ e) (h.apiece.commit t) ?_ hlk'⟩
          · intro t' e d hd
            refine ⟨h2 d fun hd' => ?_, rfl⟩
            subst hd'
            exact halone ho t' e hd
          · intro d _ hn
            by_cases hd' : d = op.dir
            · subst hd'; exact h1
            · rw [h2 d hd']; exact hothers d hd' hn
          · refine ⟨op, hop, .inl ⟨ev, rfl, List.mem_append_right _ (List.mem_singleton.mpr rfl),
              ?_⟩⟩
            rintro (hc | hc)
            · simp at hc
            · rw [hni] at hc; cases hc
      · have hmu' : ∀ d : Half, upd c.holder (.half op.dir) none d.mu = c.holder d.mu :=
          fun d => upd_other _ _ (d.mu_ne_half _)
        have hme : c.holder (.half op.dir) = some t := (hheld _).mpr (held_half.mpr rfl)
        have ho := hown.mpr hi
        have ho' : op.Owns (upd c.holder (.half op.dir) none) t :=
          (owns_congr fun d => by rw [hmu']).mpr ho
        refine ⟨lin, ops, idx, sL, pend, h.internal hw h.order (fun _ hx => hx) (fun _ hx => .inl hx)
          (release_frame hme) (fun _ _ _ _ => ⟨rfl, rfl⟩) ?_ (fun _ _ => rfl) h.apiece ?_ hlk'⟩
        · intro d hd hn
          by_cases e : d = op.dir
          · subst e; exact absurd ⟨op, hop, rfl, ho'⟩ hd
          · exact hothers d e hn
        · refine ⟨op, hop, .inr (.inr ?_)⟩
          rcases hst with ⟨ev', he, _⟩ | ⟨_, hno, _⟩ | ⟨hnl, _, hs⟩
          · cases he
          · exact absurd ho hno
          · refine ⟨hnl, ho', ?_⟩
            have := hs.trans (.release (.refl k _))
            rwa [List.append_nil] at this
    | tag d k =>
      simp only [Threads.exec, hw, Except.ok.injEq] at hx
      subst hx
      exact ⟨lin, ops, idx, sL, _, quiet _ _ _ [] (fun _ => rfl) (fun _ h => by cases h)
        (fun x => .tag (.refl (k 16) x)) (by rw [List.append_nil, upd_same]; exact h.apiece) hlk'⟩
    | alloc size k =>
      simp only [Threads.exec, hw, Except.ok.injEq] at hx
      subst hx
      exact ⟨lin, ops, idx, sL, _, quiet _ _ _ [c.shared.next] (fun d => view_next ..)
        (fun _ h => by cases h) (fun x => .alloc c.shared.next (.refl _ x)) (h.apiece.alloc t) hlk'⟩
    | use d u k =>
      simp only [Threads.exec, hw, Except.ok.injEq] at hx
      subst hx
      exact ⟨lin, ops, idx, sL, _, quiet _ _ _ [] (fun _ => rfl) (fun _ h => by cases h)
        (fun x => .use (.refl k x)) (by rw [List.append_nil, upd_same]; exact h.apiece) hlk'⟩
    | act a k =>
      simp only [Threads.exec, hw, Except.ok.injEq] at hx
      subst hx
      obtain ⟨hdir, hi, _⟩ := hstage
      have ho := hown.mpr hi
      have hv : ∀ d, d ≠ op.dir → (c.shared.act a).view s0.conn d = c.shared.view s0.conn d :=
        fun d hd => view_act_other _ _ _ (by rw [hdir]; exact hd)
      refine ⟨lin, ops, idx, sL, pend, h.internal (sC' := c.shared.act a) hw h.order (fun _ hx => hx)
        (fun _ hx => .inl hx) (fun _ _ _ => Iff.rfl) ?_ ?_ (fun _ _ => rfl) h.apiece ?_ hlk'⟩
      · intro t' e d hd
        refine ⟨rfl, hv d ?_⟩
        rintro rfl
        exact halone ho t' e hd
      · intro d hd hn
        by_cases e : d = op.dir
        · subst e; exact absurd ⟨op, hop, rfl, ho⟩ hd
        · rw [hv d e]; exact hothers d e hn
      · refine ⟨op, hop, .inr (.inr ?_)⟩
        rcases hst with ⟨ev', he, _⟩ | ⟨_, hno, _⟩ | ⟨hnl, _, hs⟩
        · cases he
        · exact absurd ho hno
        · refine ⟨hnl, ho, ?_⟩
          have := hs.trans (.act hdir (.refl _ _))
          rw [List.append_nil] at this
          rw [← hdir] at this ⊢
          rw [view_reply] at this
          rwa [view_act]

theorem Inv.run {L : Lib} {A : Allocator} {calls : T → List Op} {s0 : State}
    {sched : List T} {c c' : Threads T} {lin ops idx sL pend}
    (h : Inv L A calls s0 c lin ops idx sL pend) (hmode : Exclusive L A calls c sched)
    (hx : c.run L A calls sched = .ok c') :
    ∃ lin' ops' idx' sL' pend', Inv L A calls s0 c' lin' ops' idx' sL' pend' := by
  induction sched generalizing c lin ops idx sL pend with
  | nil =>
    cases hx
    exact ⟨lin, ops, idx, sL, pend, h⟩
  | cons t ts ih =>
    simp only [Threads.run] at hx
    obtain ⟨c1, h1, h2⟩ := exec_bind_eq_ok.mp hx
    have hnext : Exclusive L A calls c1 ts := by
      intro pre c2 hpre hrun
      refine hmode (t :: pre) c2 ?_ ?_
      · obtain ⟨r, rfl⟩ := hpre; exact ⟨r, rfl⟩
      · simp only [Threads.run, h1, exec_bind_ok]; exact hrun
    obtain ⟨lin', ops', idx', sL', pend', h'⟩ := h.exec (hmode [] c (List.nil_prefix) rfl) h1
      (hnext [] c1 (List.nil_prefix) rfl)
    exact ih h' hnext h2

theorem zip_unzip' {α β : Type} (l : List (α × β)) : (l.map (·.1)).zip (l.map (·.2)) = l := by
  induction l with
  | nil => rfl
  | cons x l ih => simp [ih]

theorem Inv.linearizes {L : Lib} {A : Allocator} {calls : T → List Op} {s0 : State}
    {c : Threads T} {lin ops idx sL pend} (h : Inv L A calls s0 c lin ops idx sL pend) :
    Linearizes L A calls s0 c (lin.map (·.1)) where
  nodup := h.order.nodup
  began := h.order.began
  realTime := h.order.realTime
  sequential := by
    obtain ⟨s, evs, h1, h2, h3⟩ := h.order.runs _
      (renumber_agree A s0.next c.shared.next idx)
    refine ⟨ops, renumber s0.next c.shared.next idx, s, evs, h.order.ops_eq,
      renumber_injective h.apiece.done h.apiece.doneIn h.apiece.le, h1, ?_, ?_⟩
    · intro x ev hx
      rw [h3, zip_unzip']
      exact h.order.ret x ev hx
    · intro hidle
      have := view_inj (c0 := s0.conn) (s := sL) (s' := c.shared) fun d => h.sync d (by
        intro t ho
        obtain ⟨n, hn⟩ := hidle t
        rw [hn] at ho
        exact ho)
      rw [← h2] at this
      exact this

/-! ### Undefined behaviour -/

theorem run_append_error {L : Lib} {A : Allocator} {ops1 ops2 : List Op} {s s1 : State}
    {e1 : List Event} {e : UB} (h1 : Frame.run L A s ops1 = .ok (s1, e1))
    (h2 : Frame.run L A s1 ops2 = .error e) : Frame.run L A s (ops1 ++ ops2) = .error e := by
  induction ops1 generalizing s e1 with
  | nil => cases h1; exact h2
  | cons op ops ih =>
    simp only [Frame.run, exec_bind_eq_ok] at h1
    obtain ⟨⟨s2, ev⟩, h3, ⟨s3, evs⟩, h4, h5⟩ := h1
    cases h5
    simp only [List.cons_append, Frame.run, h3, exec_bind_ok, ih h4]
    rfl

theorem exec_error {L : Lib} {A : Allocator} {calls : T → List Op} {c : Threads T} {t : T} {e : UB}
    (h : c.exec L A calls t = .error e) : ∃ n, c.place t = .inside n (.ub e) := by
  cases hw : c.place t with
  | idle n =>
    simp only [Threads.exec, hw] at h
    split at h <;> cases h
  | inside n p =>
    refine ⟨n, ?_⟩
    cases p <;> simp only [Threads.exec, hw] at h
    case ub e' => cases h; rfl
    case acquire m k => split at h <;> cases h
    all_goals cases h

theorem Inv.extend_error {L : Lib} {A : Allocator} {calls : T → List Op} {s0 : State}
    {c : Threads T} {lin ops idx sL} (h : Lin L A calls s0 c.log lin ops idx sL) {t : T} {n : Nat}
    {op : Op} {as : List Nat} {q : Prog Event} {y : Side} {e : UB}
    (hop : (calls t)[n]? = some op)
    (hnew : (t, n) ∉ lin.map (·.1)) (hlog : .invoked (t, n) ∈ c.log)
    (hs : CallSteps A op.dir (op.prog L) (sL.view s0.conn op.dir) as q y)
    (hq : ∀ s' A', s'.view s0.conn op.dir = y → q.alone A' s' = .error e) {hi : Nat}
    (hn : (idx ++ as).Nodup) (hin : ∀ i ∈ idx ++ as, s0.next ≤ i ∧ i < hi) (hle : s0.next ≤ hi) :
    FaultsSequentially L A calls s0 c e := by
  obtain ⟨sL', h1, h2, h3, h4⟩ := hs.alone (c0 := s0.conn) (s := sL) rfl
  have hA := renumber_agree A s0.next hi (idx ++ as)
  refine ⟨lin.map (·.1) ++ [(t, n)], ops ++ [op], renumber s0.next hi (idx ++ as),
    ?_, ?_, ?_, ?_, renumber_injective hn hin hle, ?_⟩
  · refine List.nodup_append.mpr ⟨h.nodup, by simp, ?_⟩
    intro a ha b hb
    simp only [List.mem_singleton] at hb
    subst hb
    rintro rfl
    exact hnew ha
  · intro x hx
    rw [List.mem_append] at hx
    rcases hx with hx | hx
    · exact h.began x hx
    · simp only [List.mem_singleton] at hx
      subst hx; exact hlog
  · intro a b hab hb
    rw [List.mem_append] at hb
    rcases hb with hb | hb
    · exact earlier_snoc _ (h.realTime a b hab hb)
    · simp only [List.mem_singleton] at hb
      subst hb
      obtain ⟨e, he⟩ := precedes_returned hab
      exact earlier_last _ (List.mem_map.mpr ⟨_, h.ret _ _ he, rfl⟩)
  · simp only [List.map_append, List.map_cons, List.map_nil, hop]
    rw [h.ops_eq]
  · obtain ⟨s, evs, e1, e2, e3⟩ := h.runs _ hA.append_left
    have hA2 := hA.append_right
    rw [← h.nextL] at hA2
    have := h4 _ hA2
    rw [hq _ _ h1, ← e2, prog_alone] at this
    have hstep : step L (fun i => A (renumber s0.next hi (idx ++ as) i)) s op = .error e := by
      cases hst : step L (fun i => A (renumber s0.next hi (idx ++ as) i)) s op with
      | error e' => rw [hst] at this; cases this; rfl
      | ok x => rw [hst] at this; cases this
    exact run_append_error e1 (by simp only [Frame.run, hstep]; rfl)

/-- If a step goes wrong, calls made one after the other go wrong. -/
theorem Inv.exec_error {L : Lib} {A : Allocator} {calls : T → List Op} {s0 : State}
    {c : Threads T} {lin ops idx sL pend} (h : Inv L A calls s0 c lin ops idx sL pend)
    {t : T} {e : UB} (hx : c.exec L A calls t = .error e) :
    FaultsSequentially L A calls s0 c e := by
  obtain ⟨n, hw⟩ := Frame.exec_error hx
  have hst := h.status t
  have hap := h.apiece.commit t
  rw [hw] at hst
  have hlog := h.inLog t n _ hw
  obtain ⟨op, hop, ⟨ev', he, _⟩ | ⟨hnl, hno, hs⟩ | ⟨hnl, ho, hs⟩⟩ := hst
  · cases he
  · exact Inv.extend_error h.order hop hnl hlog (hs _) (fun s' A' hv => rfl) hap.done hap.doneIn
      hap.le
  · exact Inv.extend_error h.order hop hnl hlog hs (fun s' A' hv => rfl) hap.done hap.doneIn hap.le

/-- A run that goes wrong goes wrong at a step. -/
theorem run_error {L : Lib} {A : Allocator} {calls : T → List Op} {sched : List T}
    {c : Threads T} {e : UB} (h : c.run L A calls sched = .error e) :
    ∃ pre t c', pre ++ [t] <+: sched ∧ c.run L A calls pre = .ok c' ∧
      c'.exec L A calls t = .error e := by
  induction sched generalizing c with
  | nil => cases h
  | cons t ts ih =>
    simp only [Threads.run] at h
    cases hx : c.exec L A calls t with
    | error e' =>
      rw [hx] at h; cases h
      exact ⟨[], t, c, ⟨ts, rfl⟩, rfl, hx⟩
    | ok c1 =>
      rw [hx] at h
      obtain ⟨pre, t', c', ⟨r, hr⟩, h1, h2⟩ := ih h
      refine ⟨t :: pre, t', c', ⟨r, by rw [← hr]; rfl⟩, ?_, h2⟩
      simp only [Threads.run, hx, exec_bind_ok]; exact h1

end S2A.Frame
