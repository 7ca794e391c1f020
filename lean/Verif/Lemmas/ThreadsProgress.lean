import Verif.Lemmas.ThreadsLocks
/-
No call waits forever: the holder of a mutex can go on until it releases it.
-/
namespace S2A.Frame
open HalfConn (exec_bind_eq_ok)
open Spec (unprotectsInto)
variable {T : Type} [DecidableEq T]

/-- A schedule leads to undefined behaviour, or to a state with the property. -/
def Leads (L : Lib) (A : Allocator) (calls : T → List Op) (c : Threads T)
    (P : Threads T → Prop) : Prop :=
  ∃ sched, (∃ e, c.run L A calls sched = .error e) ∨
    ∃ c', c.run L A calls sched = .ok c' ∧ P c'

theorem Leads.here {L : Lib} {A : Allocator} {calls : T → List Op} {c : Threads T}
    {P : Threads T → Prop} (h : P c) : Leads L A calls c P := ⟨[], .inr ⟨c, rfl, h⟩⟩

theorem Leads.step {L : Lib} {A : Allocator} {calls : T → List Op} {c : Threads T} (t : T)
    {P : Threads T → Prop} (h : ∀ c', c.exec L A calls t = .ok c' → Leads L A calls c' P) :
    Leads L A calls c P := by
  cases hx : c.exec L A calls t with
  | error e => exact ⟨[t], .inl ⟨e, by simp only [Threads.run, hx]; rfl⟩⟩
  | ok c1 =>
    obtain ⟨s, hs⟩ := h c1 hx
    refine ⟨t :: s, ?_⟩
    simpa only [Threads.run, hx, exec_bind_ok] using hs

theorem run_append' {L : Lib} {A : Allocator} {calls : T → List Op} {s1 s2 : List T}
    {c c1 : Threads T} (h1 : c.run L A calls s1 = .ok c1) :
    c.run L A calls (s1 ++ s2) = c1.run L A calls s2 := by
  induction s1 generalizing c with
  | nil => cases h1; rfl
  | cons t ts ih =>
    simp only [Threads.run] at h1
    obtain ⟨c2, h2, h3⟩ := exec_bind_eq_ok.mp h1
    simp only [List.cons_append, Threads.run, h2, exec_bind_ok]
    exact ih h3

theorem Leads.trans {L : Lib} {A : Allocator} {calls : T → List Op} {c : Threads T}
    {P Q : Threads T → Prop} (h : Leads L A calls c P)
    (hk : ∀ c', P c' → Leads L A calls c' Q) : Leads L A calls c Q := by
  obtain ⟨s, ⟨e, he⟩ | ⟨c1, h1, h2⟩⟩ := h
  · exact ⟨s, .inl ⟨e, he⟩⟩
  · obtain ⟨s', hs'⟩ := hk c1 h2
    refine ⟨s ++ s', ?_⟩
    rw [run_append' h1]
    exact hs'

/-- `LockInv` without anything about the keys. -/
abbrev Locks (calls : T → List Op) (c : Threads T) : Prop := LockInv (fun _ _ _ => True) calls c

theorem Locks.exec {L : Lib} {A : Allocator} {calls : T → List Op} {c c' : Threads T}
    (h : Locks calls c) {t : T} (hx : c.exec L A calls t = .ok c') : Locks calls c' :=
  LockInv.exec (fun _ => Closed.trivial L) h hx

/-- The program of thread `t` in its current call. -/
theorem Locks.stage {calls : T → List Op} {c : Threads T} (h : Locks calls c) {t : T} {n : Nat}
    {p : Prog Event} (hw : c.place t = .inside n p) :
    ∃ d into taken hl, p.Stage (fun _ _ => True) d into taken hl ∧
      ∀ m, c.holder m = some t ↔ Held d taken hl m := by
  have := h t
  rw [hw] at this
  obtain ⟨op, _, taken, hl, h1, _, h3⟩ := this
  exact ⟨_, _, taken, hl, h1, h3⟩

/-- The holder of a mutex is inside a call. -/
theorem Locks.holder {calls : T → List Op} {c : Threads T} (h : Locks calls c) {t : T} {m : Mu}
    (hm : c.holder m = some t) : ∃ n p, c.place t = .inside n p := by
  have := h t
  cases hw : c.place t with
  | idle n => rw [hw] at this; exact absurd hm (this m)
  | inside n p => exact ⟨n, p, rfl⟩

/-- The holder of the mutex of a half connection comes to release it; nobody else moves. -/
theorem half_leads {L : Lib} {A : Allocator} {calls : T → List Op} {t : T} {n : Nat} {d : Half}
    {into taken : Bool} {p : Prog Event} (hp : p.Stage (fun _ _ => True) d into taken true)
    {c : Threads T} (hi : Locks calls c) (hw : c.place t = .inside n p) :
    Leads L A calls c fun c' => Locks calls c' ∧ c'.holder (.half d) = none ∧
      (∀ e : Half, c'.holder e.mu = c.holder e.mu) ∧
      ∀ t', t' ≠ t → c'.place t' = c.place t' := by
  induction p generalizing c with
  | done => cases hp.2
  | ub e => exact .step t fun c' h => by simp only [Threads.exec, hw] at h; cases h
  | acquire m k =>
    rcases hp with ⟨_, _, _, hc, _⟩ | ⟨_, _, hc, _⟩ <;> cases hc
  | release m k =>
    rcases hp with ⟨_, _, hc, _⟩ | ⟨rfl, _, _, _⟩
    · cases hc
    · refine .step t fun c' h => ?_
      have hi' := hi.exec h
      simp only [Threads.exec, hw] at h
      cases h
      exact .here ⟨hi', by simp, fun e => upd_other _ _ (e.mu_ne_half _),
        fun t' e => upd_other _ _ e⟩
  | tag h' k ih =>
    refine .step t fun c' h => ?_
    have hi' := hi.exec h
    simp only [Threads.exec, hw] at h
    cases h
    exact (ih _ (hp _) hi' (by simp only [upd_self]; rfl)).trans fun c' ⟨h1, h2, h3, h4⟩ =>
      .here ⟨h1, h2, h3, fun t' e => (h4 t' e).trans (upd_other _ _ e)⟩
  | alloc size k ih =>
    refine .step t fun c' h => ?_
    have hi' := hi.exec h
    simp only [Threads.exec, hw] at h
    cases h
    exact (ih _ (hp _) hi' (by simp only [upd_self]; rfl)).trans fun c' ⟨h1, h2, h3, h4⟩ =>
      .here ⟨h1, h2, h3, fun t' e => (h4 t' e).trans (upd_other _ _ e)⟩
  | act a k ih =>
    refine .step t fun c' h => ?_
    have hi' := hi.exec h
    simp only [Threads.exec, hw] at h
    cases h
    exact (ih _ (hp.2.2.2 _) hi' (by simp only [upd_self]; rfl)).trans fun c' ⟨h1, h2, h3, h4⟩ =>
      .here ⟨h1, h2, h3, fun t' e => (h4 t' e).trans (upd_other _ _ e)⟩
  | use h' u k ih =>
    refine .step t fun c' h => ?_
    have hi' := hi.exec h
    simp only [Threads.exec, hw] at h
    cases h
    exact (ih hp.2.2.2 hi' (by simp only [upd_self])).trans fun c' ⟨h1, h2, h3, h4⟩ =>
      .here ⟨h1, h2, h3, fun t' e => (h4 t' e).trans (upd_other _ _ e)⟩

/-- The mutex of a half connection becomes free; a thread that does not hold it does not move. -/
theorem half_frees {L : Lib} {A : Allocator} {calls : T → List Op} {c : Threads T}
    (hi : Locks calls c) (d : Half) :
    Leads L A calls c fun c' => Locks calls c' ∧ c'.holder (.half d) = none ∧
      (∀ e : Half, c'.holder e.mu = c.holder e.mu) ∧
      ∀ t, c.holder (.half d) ≠ some t → c'.place t = c.place t := by
  cases hm : c.holder (.half d) with
  | none => exact .here ⟨hi, hm, fun _ => rfl, fun _ _ => rfl⟩
  | some u =>
    obtain ⟨n, p, hw⟩ := hi.holder hm
    obtain ⟨d', into, taken, hl, h1, h3⟩ := hi.stage hw
    rcases (h3 _).mp hm with ⟨hc, _⟩ | ⟨hc, rfl⟩
    · exact absurd hc.symm (Half.mu_ne_half _ _)
    · cases hc
      exact (half_leads h1 hi hw).trans fun c' ⟨h1, h2, h3, h4⟩ =>
        .here ⟨h1, h2, h3, fun t e => h4 t fun hc => e (by rw [hc])⟩

/-- A thread that waits for the mutex of a half connection gets it. -/
theorem acquire_leads {L : Lib} {A : Allocator} {calls : T → List Op} {c : Threads T}
    (hi : Locks calls c) {d : Half} {u : T} {n : Nat} {k : Prog Event}
    (hw : c.place u = .inside n (.acquire (.half d) k)) :
    Leads L A calls c fun c' => Locks calls c' ∧ c'.place u = .inside n k ∧
      (∀ e : Half, c'.holder e.mu = c.holder e.mu) ∧
      ∀ t, t ≠ u → c.holder (.half d) ≠ some t → c'.place t = c.place t := by
  obtain ⟨d', into, taken, hl, h1, h3⟩ := hi.stage hw
  rcases h1 with ⟨hc, _⟩ | ⟨hc, _, rfl, _⟩
  · exact absurd hc.symm (Half.mu_ne_half _ _)
  · cases hc
    have hnot : c.holder (.half d) ≠ some u := fun hc => by
      have := held_half.mp ((h3 _).mp hc)
      cases this
    refine (half_frees hi d).trans fun c1 ⟨hi1, hf, hmu, hpl⟩ => ?_
    have hw1 := (hpl u hnot).trans hw
    refine .step u fun c2 h => ?_
    have hi2 := hi1.exec h
    simp only [Threads.exec, hw1, hf] at h
    cases h
    exact .here ⟨hi2, upd_self .., fun e => (upd_other _ _ (e.mu_ne_half _)).trans (hmu e),
      fun t e hn => (upd_other _ _ e).trans (hpl t hn)⟩

/-- Does the thread wait for a mutex of the frame protector? -/
def Waits (c : Threads T) (t : T) : Prop := ∃ n e k, c.place t = .inside n (.acquire (Half.mu e) k)

theorem Waits.holds {calls : T → List Op} {c : Threads T} {t : T} (h : Waits c t)
    (hi : Locks calls c) (m : Mu) : c.holder m ≠ some t := by
  obtain ⟨n, e, k, hw⟩ := h
  obtain ⟨d, into, taken, hl, h1, h3⟩ := hi.stage hw
  intro hm
  rcases h1 with ⟨_, _, rfl, rfl, _⟩ | ⟨hc, _⟩
  · exact held_none _ _ ((h3 m).mp hm)
  · exact absurd hc (Half.mu_ne_half _ _)

/-- The holder of a mutex of the frame protector comes to release it; a thread that waits for such
a mutex does not move. -/
theorem frame_leads {L : Lib} {A : Allocator} {calls : T → List Op} {u : T} {n : Nat} {d : Half}
    {p : Prog Event} {c : Threads T} (hi : Locks calls c) (hw : c.place u = .inside n p)
    (hh : c.holder d.mu = some u) :
    Leads L A calls c fun c' => Locks calls c' ∧ c'.holder d.mu = none ∧
      ∀ t, Waits c t → c'.place t = c.place t := by
  induction p generalizing c with
  | done =>
    obtain ⟨d', into, taken, hl, ⟨rfl, rfl⟩, h3⟩ := hi.stage hw
    exact absurd ((h3 _).mp hh) (held_none _ _)
  | ub e => exact .step u fun c' h => by simp only [Threads.exec, hw] at h; cases h
  | acquire m k ih =>
    obtain ⟨d', into, taken, hl, h1, h3⟩ := hi.stage hw
    rcases h1 with ⟨rfl, _, rfl, rfl, _⟩ | ⟨rfl, _, rfl, _⟩
    · exact absurd ((h3 _).mp hh) (held_none _ _)
    · refine (acquire_leads hi hw).trans fun c1 ⟨h1, h2, h3, h4⟩ => ?_
      refine (ih h1 h2 ((h3 d).trans hh)).trans fun c2 ⟨e1, e2, e3⟩ =>
        .here ⟨e1, e2, fun t ht => ?_⟩
      have hne : t ≠ u := fun e => (e ▸ ht).holds hi _ hh
      have e4 := h4 t hne (ht.holds hi _)
      obtain ⟨n', e, k', hk'⟩ := ht
      exact (e3 t ⟨n', e, k', e4.trans hk'⟩).trans e4
  | release m k ih =>
    obtain ⟨d', into, taken, hl, h1, h3⟩ := hi.stage hw
    have hd : d' = d ∧ taken = true := by
      rcases (h3 _).mp hh with ⟨hc, ht⟩ | ⟨hc, _⟩
      · exact ⟨(Half.mu_inj hc).symm, ht⟩
      · exact absurd hc (Half.mu_ne_half _ _)
    obtain ⟨rfl, rfl⟩ := hd
    refine .step u fun c' h => ?_
    have hi' := hi.exec h
    simp only [Threads.exec, hw] at h
    cases h
    have hpl : ∀ t, Waits c t → upd c.place u (.inside n k) t = c.place t := fun t ht =>
      upd_other _ _ fun e => (e ▸ ht).holds hi _ hh
    rcases h1 with ⟨rfl, _⟩ | ⟨rfl, _⟩
    · exact .here ⟨hi', upd_self .., hpl⟩
    · refine (ih hi' (upd_self ..) ((upd_other _ _ (d'.mu_ne_half _)).trans hh)).trans
        fun c2 ⟨e1, e2, e3⟩ => .here ⟨e1, e2, fun t ht => ?_⟩
      have e4 := hpl t ht
      obtain ⟨n', e, k', hk'⟩ := ht
      exact (e3 t ⟨n', e, k', e4.trans hk'⟩).trans e4
  | tag h' k ih =>
    refine .step u fun c' h => ?_
    have hi' := hi.exec h
    simp only [Threads.exec, hw] at h
    cases h
    refine (ih _ hi' (upd_self ..) hh).trans fun c2 ⟨e1, e2, e3⟩ =>
      .here ⟨e1, e2, fun t ht => ?_⟩
    have e4 : ∀ w, upd c.place u w t = c.place t := fun w =>
      upd_other _ _ fun e => (e ▸ ht).holds hi _ hh
    obtain ⟨n', e, k', hk'⟩ := ht
    exact (e3 t ⟨n', e, k', (e4 _).trans hk'⟩).trans (e4 _)
  | alloc size k ih =>
    refine .step u fun c' h => ?_
    have hi' := hi.exec h
    simp only [Threads.exec, hw] at h
    cases h
    refine (ih _ hi' (upd_self ..) hh).trans fun c2 ⟨e1, e2, e3⟩ =>
      .here ⟨e1, e2, fun t ht => ?_⟩
    have e4 : ∀ w, upd c.place u w t = c.place t := fun w =>
      upd_other _ _ fun e => (e ▸ ht).holds hi _ hh
    obtain ⟨n', e, k', hk'⟩ := ht
    exact (e3 t ⟨n', e, k', (e4 _).trans hk'⟩).trans (e4 _)
  | act a k ih =>
    refine .step u fun c' h => ?_
    have hi' := hi.exec h
    simp only [Threads.exec, hw] at h
    cases h
    refine (ih _ hi' (upd_self ..) hh).trans fun c2 ⟨e1, e2, e3⟩ =>
      .here ⟨e1, e2, fun t ht => ?_⟩
    have e4 : ∀ w, upd c.place u w t = c.place t := fun w =>
      upd_other _ _ fun e => (e ▸ ht).holds hi _ hh
    obtain ⟨n', e, k', hk'⟩ := ht
    exact (e3 t ⟨n', e, k', (e4 _).trans hk'⟩).trans (e4 _)
  | use h' u' k ih =>
    refine .step u fun c' h => ?_
    have hi' := hi.exec h
    simp only [Threads.exec, hw] at h
    cases h
    refine (ih hi' (upd_self ..) hh).trans fun c2 ⟨e1, e2, e3⟩ =>
      .here ⟨e1, e2, fun t ht => ?_⟩
    have e4 : ∀ w, upd c.place u w t = c.place t := fun w =>
      upd_other _ _ fun e => (e ▸ ht).holds hi _ hh
    obtain ⟨n', e, k', hk'⟩ := ht
    exact (e3 t ⟨n', e, k', (e4 _).trans hk'⟩).trans (e4 _)

/-- Every call that has begun can be brought to its end. -/
theorem call_leads {L : Lib} {A : Allocator} {calls : T → List Op} {c : Threads T}
    (hi : Locks calls c) {t : T} {n : Nat} {p : Prog Event} (hw : c.place t = .inside n p) :
    Leads L A calls c fun c' => c'.place t = .idle (n + 1) := by
  induction p generalizing c with
  | done ev =>
    refine .step t fun c' h => ?_
    simp only [Threads.exec, hw] at h
    cases h
    exact .here (by simp)
  | ub e => exact .step t fun c' h => by simp only [Threads.exec, hw] at h; cases h
  | acquire m k ih =>
    obtain ⟨d, into, taken, hl, h1, h3⟩ := hi.stage hw
    rcases h1 with ⟨rfl, _⟩ | ⟨rfl, _⟩
    · -- once the mutex is free, take it and go on to the end
      have go : ∀ c : Threads T, Locks calls c → c.holder d.mu = none →
          c.place t = .inside n (.acquire d.mu k) →
          Leads L A calls c fun c' => c'.place t = .idle (n + 1) := by
        intro c hi hm hw
        refine .step t fun c' h => ?_
        have hi' := hi.exec h
        simp only [Threads.exec, hw, hm] at h
        cases h
        exact ih hi' (upd_self ..)
      cases hm : c.holder d.mu with
      | none => exact go c hi hm hw
      | some u =>
        obtain ⟨n', q, hq⟩ := hi.holder hm
        exact (frame_leads hi hq hm).trans fun c' ⟨e1, e2, e3⟩ =>
          go c' e1 e2 ((e3 t ⟨n, d, k, hw⟩).trans hw)
    · exact (acquire_leads hi hw).trans fun c' ⟨e1, e2, _⟩ => ih e1 e2
  | release m k ih =>
    refine .step t fun c' h => ?_
    have hi' := hi.exec h
    simp only [Threads.exec, hw] at h
    cases h
    exact ih hi' (upd_self ..)
  | tag h' k ih =>
    refine .step t fun c' h => ?_
    have hi' := hi.exec h
    simp only [Threads.exec, hw] at h
    cases h
    exact ih _ hi' (upd_self ..)
  | alloc size k ih =>
    refine .step t fun c' h => ?_
    have hi' := hi.exec h
    simp only [Threads.exec, hw] at h
    cases h
    exact ih _ hi' (upd_self ..)
  | act a k ih =>
    refine .step t fun c' h => ?_
    have hi' := hi.exec h
    simp only [Threads.exec, hw] at h
    cases h
    exact ih _ hi' (upd_self ..)
  | use h' u k ih =>
    refine .step t fun c' h => ?_
    have hi' := hi.exec h
    simp only [Threads.exec, hw] at h
    cases h
    exact ih hi' (upd_self ..)

end S2A.Frame
