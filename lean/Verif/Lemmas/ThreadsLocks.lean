import Verif.Lemmas.ThreadsSteps
/-
Which mutexes the threads hold, and what the mutex of a half connection protects.
-/
namespace S2A.Frame
open HalfConn (exec_bind_eq_ok)
open Spec (unprotectsInto)
variable {T : Type} [DecidableEq T]

@[simp] theorem upd_self {α β : Type} [DecidableEq α] (f : α → β) (a : α) (b : β) :
    upd f a b a = b := by simp [upd]

theorem upd_other {α β : Type} [DecidableEq α] (f : α → β) {a x : α} (b : β) (h : x ≠ a) :
    upd f a b x = f x := by simp [upd, h]

/-- The mutexes a call in the direction `d` holds. -/
def Held (d : Half) (taken hl : Bool) (m : Mu) : Prop :=
  (m = d.mu ∧ taken = true) ∨ (m = .half d ∧ hl = true)

theorem held_none (d : Half) (m : Mu) : ¬ Held d false false m := by
  rintro (⟨_, h⟩ | ⟨_, h⟩) <;> cases h

theorem held_mu {d : Half} {taken hl : Bool} : Held d taken hl d.mu ↔ taken = true :=
  ⟨fun h => h.elim (·.2) fun h => absurd h.1 (d.mu_ne_half d), fun h => .inl ⟨rfl, h⟩⟩

theorem held_half {d : Half} {taken hl : Bool} : Held d taken hl (.half d) ↔ hl = true :=
  ⟨fun h => h.elim (fun h => absurd h.1.symm (d.mu_ne_half d)) (·.2), fun h => .inr ⟨rfl, h⟩⟩

theorem held_other {d : Half} {taken hl taken' : Bool} {m : Mu} (h : m ≠ d.mu) :
    Held d taken hl m ↔ Held d taken' hl m := by simp [Held, h]

theorem held_other' {d : Half} {taken hl hl' : Bool} {m : Mu} (h : m ≠ .half d) :
    Held d taken hl m ↔ Held d taken hl' m := by simp [Held, h]

/-- Which mutexes a thread holds, by where it is. -/
def LockStatus (J : Half → HalfConn → List Spec.KeyUse → Prop) (calls : T → List Op)
    (holder : Mu → Option T) (t : T) : Where → Prop
  | .idle _ => ∀ m, holder m ≠ some t
  | .inside n p => ∃ op, (calls t)[n]? = some op ∧ ∃ taken hl,
      p.Stage (J op.dir) op.dir (unprotectsInto op) taken hl ∧
      (taken = true → unprotectsInto op = false) ∧
      ∀ m, holder m = some t ↔ Held op.dir taken hl m

/-- Every thread is in such a state. -/
def LockInv (J : Half → HalfConn → List Spec.KeyUse → Prop) (calls : T → List Op)
    (c : Threads T) : Prop :=
  ∀ t, LockStatus J calls c.holder t (c.place t)

variable {J : Half → HalfConn → List Spec.KeyUse → Prop}

theorem LockStatus.frame {calls : T → List Op} {holder holder' : Mu → Option T} {t : T} {w : Where}
    (h : LockStatus J calls holder t w) (hh : ∀ m, holder' m = some t ↔ holder m = some t) :
    LockStatus J calls holder' t w := by
  cases w with
  | idle n => exact fun m hm => h m ((hh m).mp hm)
  | inside n p =>
    obtain ⟨op, hop, taken, hl, h1, h2, h3⟩ := h
    exact ⟨op, hop, taken, hl, h1, h2, fun m => (hh m).trans (h3 m)⟩

theorem LockInv.update {calls : T → List Op} {c : Threads T} (h : LockInv J calls c) {t : T}
    {w : Where} {holder' : Mu → Option T} {s : Shared} {log : List (Obs T)} {us}
    (hh : ∀ t', t' ≠ t → ∀ m, holder' m = some t' ↔ c.holder m = some t')
    (hs : LockStatus J calls holder' t w) :
    LockInv J calls ⟨s, holder', upd c.place t w, log, us⟩ := by
  intro t'
  by_cases e : t' = t
  · subst e; simpa only [upd_self] using hs
  · simp only [upd_other _ _ e]; exact (h t').frame (hh t' e)

theorem acquire_frame {holder : Mu → Option T} {m : Mu} {t : T} (hm : holder m = none) :
    ∀ t', t' ≠ t → ∀ m', upd holder m (some t) m' = some t' ↔ holder m' = some t' := by
  intro t' e m'
  by_cases hd : m' = m
  · subst hd; simp [hm, Ne.symm e]
  · rw [upd_other _ _ hd]

theorem release_frame {holder : Mu → Option T} {m : Mu} {t : T} (hm : holder m = some t) :
    ∀ t', t' ≠ t → ∀ m', upd holder m none m' = some t' ↔ holder m' = some t' := by
  intro t' e m'
  by_cases hd : m' = m
  · subst hd; simp [hm, Ne.symm e]
  · rw [upd_other _ _ hd]

theorem LockInv.exec {L : Lib} (hJ : ∀ d, Closed L (J d)) {A : Allocator} {calls : T → List Op}
    {c c' : Threads T} (h : LockInv J calls c) {t : T} (hx : c.exec L A calls t = .ok c') :
    LockInv J calls c' := by
  have hst := h t
  cases hw : c.place t with
  | idle n =>
    rw [hw] at hst
    cases hop : (calls t)[n]? with
    | none =>
      simp only [Threads.exec, hw, hop, Except.ok.injEq] at hx
      subst hx; exact h
    | some op =>
      simp only [Threads.exec, hw, hop, Except.ok.injEq] at hx
      subst hx
      exact h.update (fun _ _ _ => Iff.rfl) ⟨op, hop, false, false, prog_stage (hJ _) op,
        (fun h => by cases h), fun m => ⟨fun hm => absurd hm (hst m), fun hm => absurd hm
          (held_none _ _)⟩⟩
  | inside n p =>
    rw [hw] at hst
    obtain ⟨op, hop, taken, hl, h1, h2, h3⟩ := hst
    cases p <;> simp only [Threads.exec, hw] at hx
    case done ev =>
      cases hx
      obtain ⟨rfl, rfl⟩ := h1
      exact h.update (fun _ _ _ => Iff.rfl) fun m hm => held_none _ _ ((h3 m).mp hm)
    case ub => cases hx
    case acquire m k =>
      cases hm : c.holder m with
      | some u => rw [hm] at hx; cases hx; exact h
      | none =>
        rw [hm] at hx; cases hx
        refine h.update (acquire_frame hm) ⟨op, hop, ?_⟩
        rcases h1 with ⟨rfl, hi, rfl, rfl, hk⟩ | ⟨rfl, hi, rfl, hk, _⟩
        · refine ⟨true, false, hk, fun _ => hi, fun m => ?_⟩
          by_cases hd : m = op.dir.mu
          · subst hd; simp [held_mu]
          · rw [upd_other _ _ hd, h3, held_other hd]
        · refine ⟨taken, true, hk, h2, fun m => ?_⟩
          by_cases hd : m = .half op.dir
          · subst hd; simp [held_half]
          · rw [upd_other _ _ hd, h3, held_other' hd]
    case release m k =>
      cases hx
      have hme : c.holder m = some t := by
        rw [h3]
        rcases h1 with ⟨rfl, ht, _⟩ | ⟨rfl, _, ht, _⟩
        · exact held_mu.mpr ht
        · exact held_half.mpr ht
      refine h.update (release_frame hme) ⟨op, hop, ?_⟩
      rcases h1 with ⟨rfl, rfl, rfl, a, rfl⟩ | ⟨rfl, hi, rfl, hk⟩
      · refine ⟨false, false, ⟨rfl, rfl⟩, (fun h => by cases h), fun m => ?_⟩
        by_cases hd : m = op.dir.mu
        · subst hd; simp [held_mu]
        · rw [upd_other _ _ hd, h3, held_other hd]
      · refine ⟨taken, false, hk, h2, fun m => ?_⟩
        by_cases hd : m = .half op.dir
        · subst hd; simp [held_half]
        · rw [upd_other _ _ hd, h3, held_other' hd]
    case tag d k =>
      cases hx
      exact h.update (fun _ _ _ => Iff.rfl) ⟨op, hop, taken, hl, h1 _, h2, h3⟩
    case alloc size k =>
      cases hx
      exact h.update (fun _ _ _ => Iff.rfl) ⟨op, hop, taken, hl, h1 _, h2, h3⟩
    case act a k =>
      cases hx
      exact h.update (fun _ _ _ => Iff.rfl) ⟨op, hop, taken, hl, h1.2.2.2 _, h2, h3⟩
    case use d u k =>
      cases hx
      exact h.update (fun _ _ _ => Iff.rfl) ⟨op, hop, taken, hl, h1.2.2.2, h2, h3⟩

theorem LockInv.run {L : Lib} (hJ : ∀ d, Closed L (J d)) {A : Allocator} {calls : T → List Op}
    {sched : List T} {c c' : Threads T} (h : LockInv J calls c)
    (hx : c.run L A calls sched = .ok c') : LockInv J calls c' := by
  induction sched generalizing c with
  | nil => cases hx; exact h
  | cons t ts ih =>
    simp only [Threads.run] at hx
    obtain ⟨c1, h1, h2⟩ := exec_bind_eq_ok.mp hx
    exact ih (h.exec hJ h1) h2

theorem LockInv.init (J : Half → HalfConn → List Spec.KeyUse → Prop) (calls : T → List Op)
    (s0 : State) : LockInv J calls (Threads.init (T := T) s0) :=
  fun t m h => by simp [Threads.init] at h

/-! ### The half connections -/

/-- What holds of the half connections and the uses of their keys. -/
structure KeyInv (J : Half → HalfConn → List Spec.KeyUse → Prop) (c : Threads T) : Prop where
  free : ∀ h, c.holder (.half h) = none → J h (getHalf c.shared.conn h) (c.keyUses h)
  held : ∀ h t, c.holder (.half h) = some t → ∃ n p, c.place t = .inside n p ∧
    p.Keeps (J h) h (getHalf c.shared.conn h) (c.keyUses h)
  reach : ∀ h, ∃ hc, J h hc (c.keyUses h)

theorem unguarded_half {a : Act} (h : a.guarded = false) (c : Record.Conn) (d : Half) :
    getHalf (a.conn c) d = getHalf c d := by
  cases a <;> first | (cases d <;> rfl) | cases h

omit [DecidableEq T] in
theorem keyUses_snoc (c : Threads T) (d h : Half) (u : Spec.KeyUse) (s holder place log) :
    (⟨s, holder, place, log, c.uses ++ [(d, u)]⟩ : Threads T).keyUses h =
      if d = h then c.keyUses h ++ [u] else c.keyUses h := by
  unfold Threads.keyUses
  by_cases e : d = h <;> simp [e]

/-- A step that changes neither mutexes nor half connections. -/
theorem KeyInv.move {c : Threads T} (h : KeyInv J c) {t : T} {s : Shared} {w : Where} {log}
    (hs : ∀ d, getHalf s.conn d = getHalf c.shared.conn d)
    (hw : ∀ n p d, c.place t = .inside n p → c.holder (.half d) = some t →
      p.Keeps (J d) d (getHalf c.shared.conn d) (c.keyUses d) →
      ∃ n' p', w = .inside n' p' ∧
        p'.Keeps (J d) d (getHalf c.shared.conn d) (c.keyUses d)) :
    KeyInv J ⟨s, c.holder, upd c.place t w, log, c.uses⟩ where
  free := fun d hd => by
    show J d (getHalf s.conn d) (c.keyUses d)
    rw [hs]; exact h.free d hd
  held := fun d t' hd => by
    show ∃ n p, upd c.place t w t' = .inside n p ∧
      p.Keeps (J d) d (getHalf s.conn d) (c.keyUses d)
    rw [hs]
    obtain ⟨n, p, h1, h2⟩ := h.held d t' hd
    by_cases e : t' = t
    · subst e
      rw [upd_self]
      exact hw n p d h1 hd h2
    · rw [upd_other _ _ e]; exact ⟨n, p, h1, h2⟩
  reach := h.reach

theorem KeyInv.exec {L : Lib} {A : Allocator} {calls : T → List Op} {c c' : Threads T}
    (h : KeyInv J c) (hl : LockInv J calls c) {t : T} (hx : c.exec L A calls t = .ok c') :
    KeyInv J c' := by
  have hst := hl t
  cases hw : c.place t with
  | idle n =>
    rw [hw] at hst
    cases hop : (calls t)[n]? with
    | none =>
      simp only [Threads.exec, hw, hop, Except.ok.injEq] at hx
      subst hx; exact h
    | some op =>
      simp only [Threads.exec, hw, hop, Except.ok.injEq] at hx
      subst hx
      exact h.move (fun _ => rfl) fun n' p d hp => by rw [hw] at hp; cases hp
  | inside n p =>
    rw [hw] at hst
    obtain ⟨op, hop, taken, hl', h1, h2, h3⟩ := hst
    have mine : ∀ d, c.holder (.half d) = some t →
        p.Keeps (J d) d (getHalf c.shared.conn d) (c.keyUses d) := by
      intro d hd
      obtain ⟨n', p', e1, e2⟩ := h.held d t hd
      rw [hw] at e1; cases e1
      exact e2
    cases p <;> simp only [Threads.exec, hw] at hx
    case done ev =>
      cases hx
      refine h.move (fun _ => rfl) fun n' p d hp _ hk => ?_
      rw [hw] at hp; cases hp
      exact hk.elim
    case ub => cases hx
    case acquire m k =>
      have hno : ∀ d, c.holder (.half d) ≠ some t := fun d hd => mine d hd
      cases hm : c.holder m with
      | some u => rw [hm] at hx; cases hx; exact h
      | none =>
        rw [hm] at hx; cases hx
        have other : ∀ (d : Half) (t' : T), t' ≠ t → c.holder (.half d) = some t' →
            ∃ n' p', upd c.place t (.inside n k) t' = .inside n' p' ∧
              p'.Keeps (J d) d (getHalf c.shared.conn d) (c.keyUses d) := by
          intro d t' e hd
          rw [upd_other _ _ e]; exact h.held d t' hd
        refine ⟨fun d hd => ?_, fun d t' hd => ?_, h.reach⟩
        · refine h.free d ?_
          by_cases e : Mu.half d = m
          · rw [e]; exact hm
          · simpa only [upd_other _ _ e] using hd
        · by_cases e : Mu.half d = m
          · subst e
            simp only [upd_self, Option.some.injEq] at hd
            subst hd
            refine ⟨n, k, upd_self .., ?_⟩
            rcases h1 with ⟨hc, _⟩ | ⟨hc, _, _, _, hk⟩
            · exact absurd hc.symm (Half.mu_ne_half _ _)
            · cases hc
              exact hk _ _ (h.free _ hm)
          · simp only [upd_other _ _ e] at hd
            by_cases e' : t' = t
            · subst e'; exact absurd hd (hno d)
            · exact other d t' e' hd
    case release m k =>
      cases hx
      refine ⟨fun d hd => ?_, fun d t' hd => ?_, h.reach⟩
      · by_cases e : Mu.half d = m
        · subst e
          rcases h1 with ⟨hc, _⟩ | ⟨hc, _, ht, _⟩
          · exact absurd hc.symm (Half.mu_ne_half _ _)
          · cases hc
            exact (mine _ ((h3 _).mpr (held_half.mpr ht))).2
        · exact h.free d (by simpa only [upd_other _ _ e] using hd)
      · by_cases e : Mu.half d = m
        · subst e; simp at hd
        · simp only [upd_other _ _ e] at hd
          by_cases e' : t' = t
          · subst e'; exact absurd (mine d hd).1.symm e
          · obtain ⟨n', p', e1, e2⟩ := h.held d t' hd
            exact ⟨n', p', by simpa only [upd_other _ _ e'] using e1, e2⟩
    case tag d k =>
      cases hx
      refine h.move (fun _ => rfl) fun n' p d hp _ hk => ?_
      rw [hw] at hp; cases hp
      exact ⟨_, _, rfl, hk _⟩
    case alloc size k =>
      cases hx
      refine h.move (fun d => by cases d <;> rfl) fun n' p d hp _ hk => ?_
      rw [hw] at hp; cases hp
      exact ⟨_, _, rfl, hk _⟩
    case act a k =>
      cases hx
      cases hg : a.guarded with
      | false =>
        refine h.move (fun d => unguarded_half hg _ d) fun n' p d hp _ hk => ?_
        rw [hw] at hp; cases hp
        cases a with
        | readHalf => cases hg
        | writeHalf => cases hg
        | readOwn => exact hk.elim
        | writeOwn => exact hk.elim
        | emit => exact hk.elim
      | true =>
        have hme : c.holder (.half op.dir) = some t :=
          (h3 _).mpr (held_half.mpr (h1.2.2.1 hg))
        have hk := mine _ hme
        cases a with
        | readOwn => cases hg
        | writeOwn => cases hg
        | emit => cases hg
        | readHalf d =>
          refine h.move (fun _ => rfl) fun n' p d' hp hd' hk => ?_
          rw [hw] at hp; cases hp
          obtain ⟨rfl, hk⟩ := hk
          exact ⟨_, _, rfl, hk⟩
        | writeHalf d hc =>
          obtain ⟨rfl, hk⟩ := hk
          have hs : ∀ d', d' ≠ op.dir →
              getHalf (setHalf c.shared.conn op.dir hc) d' = getHalf c.shared.conn d' := by
            intro d' e
            generalize op.dir = d at e
            cases d <;> cases d' <;> first | rfl | exact absurd rfl e
          have hs' : getHalf (setHalf c.shared.conn op.dir hc) op.dir = hc := by
            generalize op.dir = d
            cases d <;> rfl
          refine ⟨fun d hd => ?_, fun d t' hd => ?_, h.reach⟩
          · by_cases e : d = op.dir
            · subst e
              have hd : c.holder (.half op.dir) = none := hd
              rw [hme] at hd; cases hd
            · show J d (getHalf (setHalf c.shared.conn op.dir hc) d) (c.keyUses d)
              rw [hs d e]; exact h.free d hd
          · show ∃ n' p', upd c.place t (.inside n (k ())) t' = .inside n' p' ∧
              p'.Keeps (J d) d (getHalf (setHalf c.shared.conn op.dir hc) d) (c.keyUses d)
            have hd : c.holder (.half d) = some t' := hd
            by_cases e : d = op.dir
            · subst e
              rw [hme] at hd; cases hd
              rw [hs', upd_self]
              exact ⟨n, k (), rfl, hk⟩
            · rw [hs d e]
              by_cases e' : t' = t
              · subst e'
                exact absurd (mine d hd).1.symm e
              · rw [upd_other _ _ e']; exact h.held d t' hd
    case use d u k =>
      cases hx
      obtain ⟨rfl, _, ht, _⟩ := h1
      have hme : c.holder (.half op.dir) = some t := (h3 _).mpr (held_half.mpr ht)
      obtain ⟨_, hr, hk⟩ := mine _ hme
      refine ⟨fun d hd => ?_, fun d t' hd => ?_, fun d => ?_⟩
      · rw [keyUses_snoc]
        by_cases e : op.dir = d
        · subst e
          have hd : c.holder (.half op.dir) = none := hd
          rw [hme] at hd; cases hd
        · rw [if_neg e]; exact h.free d hd
      · rw [keyUses_snoc]
        have hd : c.holder (.half d) = some t' := hd
        by_cases e : op.dir = d
        · subst e
          rw [hme] at hd; cases hd
          rw [if_pos rfl]
          exact ⟨n, k, upd_self .., hk⟩
        · rw [if_neg e]
          by_cases e' : t' = t
          · subst e'
            exact absurd (mine d hd).1 e
          · obtain ⟨n', p', e1, e2⟩ := h.held d t' hd
            exact ⟨n', p', by simpa only [upd_other _ _ e'] using e1, e2⟩
      · rw [keyUses_snoc]
        by_cases e : op.dir = d
        · subst e; rw [if_pos rfl]; exact hr
        · rw [if_neg e]; exact h.reach d

theorem KeyInv.run {L : Lib} (hJ : ∀ d, Closed L (J d)) {A : Allocator} {calls : T → List Op}
    {sched : List T} {c c' : Threads T} (h : KeyInv J c) (hl : LockInv J calls c)
    (hx : c.run L A calls sched = .ok c') : KeyInv J c' := by
  induction sched generalizing c with
  | nil => cases hx; exact h
  | cons t ts ih =>
    simp only [Threads.run] at hx
    obtain ⟨c1, h1, h2⟩ := exec_bind_eq_ok.mp hx
    exact ih (h.exec hl h1) (hl.exec hJ h1) h2

omit [DecidableEq T] in
theorem KeyInv.init {s0 : State} (h : ∀ d, J d (getHalf s0.conn d) []) :
    KeyInv J (Threads.init (T := T) s0) :=
  ⟨fun d _ => h d, fun d t ht => by simp [Threads.init] at ht, fun d => ⟨_, h d⟩⟩

/-- The half connection `hc` is what calls make of `hc0`, and `us` are the uses of keys. -/
def Ran (L : Lib) (hc0 hc : HalfConn) (us : List Spec.KeyUse) : Prop :=
  ∃ ops evs, HalfConn.run L hc0 ops = .ok (hc, evs) ∧ HalfConn.trace evs = us

theorem half_run_snoc {L : Lib} {ops op hc0 hc hc' evs ev}
    (h : HalfConn.run L hc0 ops = .ok (hc, evs)) (h' : HalfConn.step L hc op = .ok (hc', ev)) :
    HalfConn.run L hc0 (ops ++ [op]) = .ok (hc', evs ++ [ev]) := by
  induction ops generalizing hc0 evs with
  | nil =>
    cases h
    simp only [List.nil_append, HalfConn.run, h', exec_bind_ok]; rfl
  | cons o ops ih =>
    simp only [HalfConn.run] at h
    obtain ⟨⟨hc1, e⟩, h1, h2⟩ := exec_bind_eq_ok.mp h
    obtain ⟨⟨hc2, es⟩, h3, h4⟩ := exec_bind_eq_ok.mp h2
    cases h4
    simp only [List.cons_append, HalfConn.run, h1, ih h3, exec_bind_ok]; rfl

theorem trace_snoc (evs : List HalfConn.Event) (ev : HalfConn.Event) :
    HalfConn.trace (evs ++ [ev]) = HalfConn.trace evs ++ HalfConn.trace [ev] := by
  induction evs with
  | nil => rfl
  | cons e es ih =>
    cases e with
    | aead c st => cases c <;> simp [HalfConn.trace, ih]
    | updated st => cases st <;> simp [HalfConn.trace, ih]

theorem Ran.closed (L : Lib) (hc0 : HalfConn) : Closed L (Ran L hc0) where
  encrypt := by
    rintro hc us f aad pt out hc' call r ⟨ops, evs, h1, rfl⟩ h
    refine ⟨ops ++ [.encrypt f aad pt out], _, half_run_snoc h1 (ev := .aead (some call) r.status) ?_,
      trace_snoc ..⟩
    simp only [HalfConn.step, h, exec_bind_ok]; rfl
  decrypt := by
    rintro hc us f aad ct out hc' call r ⟨ops, evs, h1, rfl⟩ h
    refine ⟨ops ++ [.decrypt f aad ct out], _, half_run_snoc h1 (ev := .aead (some call) r.status) ?_,
      trace_snoc ..⟩
    simp only [HalfConn.step, h, exec_bind_ok]; rfl
  updateKey := by
    rintro hc us f hc' st ⟨ops, evs, h1, rfl⟩ h
    refine ⟨ops ++ [.updateKey f], _, half_run_snoc h1 (ev := .updated st) ?_, ?_⟩
    · simp only [HalfConn.step, h, exec_bind_ok]; rfl
    · rw [trace_snoc]
      cases st <;> rfl

/-- Whatever threads do, a half connection sees one call after the other. -/
theorem run_keys {L : Lib} {A : Allocator} {calls : T → List Op} {sched : List T} {s0 : State}
    {c : Threads T} (h : (Threads.init s0).run L A calls sched = .ok c) (d : Half) :
    ∃ hc, Ran L (getHalf s0.conn d) hc (c.keyUses d) :=
  (KeyInv.run (J := fun d => Ran L (getHalf s0.conn d)) (fun _ => Ran.closed L _)
    (KeyInv.init fun _ => ⟨[], [], rfl, rfl⟩) (LockInv.init _ _ _) h).reach d

end S2A.Frame
