import Verif.Model.Machine
/-
A discipline for programs of the machine, under which there are no data races and no uses
of deleted objects, but for actions that are exempt from it.
-/
namespace S2A.Machine
variable {S : Shape} {T : Type} [DecidableEq T]

/-- Who may do what. -/
structure Rules (S : Shape) (T : Type) where
  /-- May the thread, holding the locks, replace the pointer? -/
  mayInstall : S.Ptr → T → List S.Lock → Prop
  /-- May the thread, holding the locks, read the pointer? -/
  mayLoad : S.Ptr → T → List S.Lock → Prop
  mayInstall_excl : ∀ p t held u held', mayInstall p t held → mayLoad p u held' →
    t = u ∨ ∃ l, l ∈ held ∧ l ∈ held'
  mayInstall_mayLoad : ∀ p t held, mayInstall p t held → mayLoad p t held
  /-- May the thread, holding the locks, touch the variable? -/
  may : S.Var → T → List S.Lock → Prop
  may_excl : ∀ v t held u held', may v t held → may v u held' → t = u ∨ ∃ l, l ∈ held ∧ l ∈ held'
  /-- May the thread, holding the locks, use what a pointer points to? -/
  mayUse : S.Ptr → T → List S.Lock → Prop
  mayUse_excl : ∀ p t held u held', mayUse p t held → mayUse p u held' →
    t = u ∨ ∃ l, l ∈ held ∧ l ∈ held'
  /-- Places at which a thread uses the fixed part of objects without following the rules. -/
  exempt : T → S.Site → S.Ptr → Prop
  /-- Locks are taken in ascending order. -/
  rank : S.Lock → Nat

/-- What is known about the pointer a thread has read. -/
inductive Known (S : Shape)
  | nothing
  /-- It is the one in the member. -/
  | current (p : S.Ptr)
  /-- It is the one that was replaced, and not deleted yet. -/
  | old (p : S.Ptr)

/-- The program follows the rules, from a point where the thread holds the given locks. -/
def Follows (R : Rules S T) (t : T) : List S.Lock → Known S → List (Action S) → Prop
  | held, _, [] => held = []
  | held, k, .acquire l :: as =>
    l ∉ held ∧ (∀ l' ∈ held, R.rank l' < R.rank l) ∧ Follows R t (l :: held) .nothing as
  | held, k, .release l :: as => l ∈ held ∧ Follows R t (held.erase l) .nothing as
  | held, k, .load site p :: as =>
    (R.exempt t site p ∧ Follows R t held .nothing as) ∨
      (R.mayLoad p t held ∧ Follows R t held (.current p) as)
  | held, k, .deref site p part :: as =>
    (R.exempt t site p ∧ part = .fixed ∧ Follows R t held k as) ∨
      (k = .current p ∧ (part = .mutable → R.mayUse p t held) ∧ Follows R t held k as)
  | held, k, .install p :: as =>
    R.mayInstall p t held ∧ Follows R t held (.old p) as
  | held, k, .free p :: as => k = .old p ∧ Follows R t held .nothing as
  | held, k, .read v :: as => R.may v t held ∧ Follows R t held k as
  | held, k, .write v :: as => R.may v t held ∧ Follows R t held k as

/-- Knowing more does not hurt. -/
theorem Follows.mono {R : Rules S T} {t : T} {held : List S.Lock} {as : List (Action S)}
    (h : Follows R t held .nothing as) (k : Known S) : Follows R t held k as := by
  induction as generalizing k with
  | nil => exact h
  | cons a as ih =>
    cases a with
    | acquire l => exact h
    | release l => exact h
    | load site p => exact h
    | deref site p part =>
      rcases h with ⟨h1, h2, h3⟩ | ⟨h1, _⟩
      · exact .inl ⟨h1, h2, ih h3 k⟩
      · cases h1
    | install p => exact h
    | free p => cases h.1
    | read v => exact ⟨h.1, ih h.2 k⟩
    | write v => exact ⟨h.1, ih h.2 k⟩

/-- A part of a program that follows the rules when the given locks are held, and holds them
again in the end. -/
def Block (R : Rules S T) (t : T) (held : List S.Lock) (as : List (Action S)) : Prop :=
  ∀ k rest, Follows R t held .nothing rest → Follows R t held k (as ++ rest)

theorem Block.nil {R : Rules S T} {t : T} {held : List S.Lock} : Block R t held [] :=
  fun k _ h => h.mono k

theorem Block.append {R : Rules S T} {t : T} {held : List S.Lock} {as bs : List (Action S)}
    (h1 : Block R t held as) (h2 : Block R t held bs) : Block R t held (as ++ bs) := by
  intro k rest h
  rw [List.append_assoc]
  exact h1 k _ (h2 .nothing rest h)

theorem Block.flatMap {α : Type} {R : Rules S T} {t : T} {held : List S.Lock} {l : List α}
    {f : α → List (Action S)} (h : ∀ x ∈ l, Block R t held (f x)) :
    Block R t held (l.flatMap f) := by
  induction l with
  | nil => exact .nil
  | cons x xs ih =>
    rw [List.flatMap_cons]
    exact (h x (by simp)).append (ih fun y hy => h y (by simp [hy]))

theorem Block.follows {R : Rules S T} {t : T} {as : List (Action S)} (h : Block R t [] as) :
    Follows R t [] .nothing as := by
  have := h .nothing [] rfl
  rwa [List.append_nil] at this

/-- Taking a lock around a block. -/
theorem Block.locked {R : Rules S T} {t : T} {held : List S.Lock} {as : List (Action S)}
    {l : S.Lock} (h1 : l ∉ held) (h2 : ∀ l' ∈ held, R.rank l' < R.rank l)
    (h : Block R t (l :: held) as) : Block R t held (.acquire l :: as ++ [.release l]) := by
  intro k rest hr
  simp only [List.cons_append, List.append_assoc, List.nil_append]
  exact ⟨h1, h2, h .nothing _ ⟨by simp, by simpa using hr⟩⟩

/-- What is known about a pointer is true. -/
def KnownOk (R : Rules S T) (c : Config S T) (t : T) (held : List S.Lock) : Known S → Prop
  | .nothing => True
  | .current p => R.mayLoad p t held ∧ c.reg t = some (p, c.ver p)
  | .old p => R.mayInstall p t held ∧
    ∃ n, c.ver p = n + 1 ∧ c.reg t = some (p, n) ∧ c.freed (p, n) = false

/-- A thread follows the rules from here on. -/
structure ThreadOk (R : Rules S T) (c : Config S T) (t : T) (held : List S.Lock) (k : Known S) :
    Prop where
  follows : Follows R t held k (c.prog t)
  nodup : held.Nodup
  holds : ∀ l, c.holder l = some t ↔ l ∈ held
  known : KnownOk R c t held k

/-- All threads follow the rules, and no object is deleted while it is in a member. -/
structure Inv (R : Rules S T) (c : Config S T) : Prop where
  threads : ∀ t, ∃ held k, ThreadOk R c t held k
  freed : ∀ p n, c.freed (p, n) = true → n < c.ver p

theorem upd_same {α β : Type} [DecidableEq α] (f : α → β) (a : α) (b : β) : upd f a b a = b := by
  simp [upd]

theorem upd_other {α β : Type} [DecidableEq α] (f : α → β) {a x : α} (b : β) (h : x ≠ a) :
    upd f a b x = f x := by
  simp [upd, h]

theorem Inv.init {R : Rules S T} {prog : T → List (Action S)}
    (h : ∀ t, Follows R t [] .nothing (prog t)) : Inv R (.init prog) :=
  ⟨fun t => ⟨[], .nothing, h t, .nil, fun l => by simp [Config.init], trivial⟩,
    fun p n h => by simp [Config.init] at h⟩

/-- A thread that is not scheduled: the rest of the state may change, but for what it knows. -/
theorem ThreadOk.other {R : Rules S T} {c c' : Config S T} {u : T} {held : List S.Lock}
    {k : Known S} (h : ThreadOk R c u held k) (hp : c'.prog u = c.prog u)
    (hh : ∀ l, c'.holder l = some u ↔ c.holder l = some u) (hr : c'.reg u = c.reg u)
    (hv : ∀ p, k = .current p ∨ k = .old p → c'.ver p = c.ver p)
    (hf : ∀ p n, k = .old p → c.ver p = n + 1 → c'.freed (p, n) = c.freed (p, n)) :
    ThreadOk R c' u held k := by
  refine ⟨hp ▸ h.follows, h.nodup, fun l => (hh l).trans (h.holds l), ?_⟩
  have hk := h.known
  cases k with
  | nothing => trivial
  | current p => exact ⟨hk.1, by rw [hr, hv p (.inl rfl)]; exact hk.2⟩
  | old p =>
    obtain ⟨h1, n, h3, h4, h5⟩ := hk
    exact ⟨h1, n, by rw [hv p (.inr rfl)]; exact h3, by rw [hr]; exact h4,
      by rw [hf p n rfl h3]; exact h5⟩

/-- Two threads do not hold the same lock. -/
theorem ThreadOk.excl {R : Rules S T} {c : Config S T} {t u : T} {held held' : List S.Lock}
    {k k' : Known S} (h : ThreadOk R c t held k) (h' : ThreadOk R c u held' k') {l : S.Lock}
    (h1 : l ∈ held) (h2 : l ∈ held') : t = u := by
  have e1 := (h.holds l).2 h1
  have e2 := (h'.holds l).2 h2
  rw [e1] at e2
  exact Option.some.inj e2

/-- If a thread may replace a pointer now, another one knows nothing about it. -/
theorem ThreadOk.known_ne {R : Rules S T} {c : Config S T} {t u : T} {held held' : List S.Lock}
    {k k' : Known S} (h : ThreadOk R c t held k) (h' : ThreadOk R c u held' k') {p : S.Ptr}
    (hi : R.mayInstall p t held) (hne : u ≠ t) : k' ≠ .current p ∧ k' ≠ .old p := by
  have key : ¬ R.mayLoad p u held' := fun hl => by
    rcases R.mayInstall_excl p t held u held' hi hl with e | ⟨l, e1, e2⟩
    · exact hne e.symm
    · exact hne (h.excl h' e1 e2).symm
  constructor
  · rintro rfl; exact key h'.known.1
  · rintro rfl; exact key (R.mayInstall_mayLoad _ _ _ h'.known.1)

theorem exec_inv {R : Rules S T} {c c' : Config S T} {t : T} (hi : Inv R c)
    (h : exec c t = .next c') : Inv R c' := by
  obtain ⟨held, k, ht⟩ := hi.threads t
  unfold exec at h
  cases hp : c.prog t with
  | nil => rw [hp] at h; cases h
  | cons a rest =>
    rw [hp] at h
    have hf := ht.follows
    rw [hp] at hf
    -- all threads but `t`, if nothing but the program, the register of `t` and its locks change
    have others : ∀ c' : Config S T, (∀ u, u ≠ t → c'.prog u = c.prog u) →
        (∀ u, u ≠ t → ∀ l, c'.holder l = some u ↔ c.holder l = some u) →
        (∀ u, u ≠ t → c'.reg u = c.reg u) → c'.ver = c.ver → c'.freed = c.freed →
        (∃ held' k', ThreadOk R c' t held' k') → Inv R c' := by
      intro c' h1 h2 h3 h4 h5 h6
      refine ⟨fun u => ?_, ?_⟩
      · by_cases hu : u = t
        · subst hu; exact h6
        · obtain ⟨held', k', hu'⟩ := hi.threads u
          exact ⟨held', k', hu'.other (h1 u hu) (h2 u hu) (h3 u hu) (fun _ _ => by rw [h4])
            (fun _ _ _ _ => by rw [h5])⟩
      · rw [h4, h5]; exact hi.freed
    cases a with
    | acquire l =>
      simp only at h
      cases hl : c.holder l with
      | some v => rw [hl] at h; cases h
      | none =>
        rw [hl] at h
        cases h
        obtain ⟨f1, f2, f3⟩ := hf
        refine others _ (fun u hu => upd_other _ _ hu) (fun u hu l' => ?_) (fun u hu => rfl) rfl rfl
          ⟨l :: held, .nothing, ?_, ?_, ?_, trivial⟩
        · simp only [upd]
          split
          · rename_i e; subst e; simp [hl, Ne.symm hu]
          · rfl
        · simp only [upd_same]; exact f3
        · exact List.nodup_cons.2 ⟨f1, ht.nodup⟩
        · intro l'
          simp only [upd]
          split
          · rename_i e; subst e; simp
          · rename_i e; rw [ht.holds]; simp [e]
    | release l =>
      cases h
      obtain ⟨f1, f2⟩ := hf
      refine others _ (fun u hu => upd_other _ _ hu) (fun u hu l' => ?_) (fun u hu => rfl) rfl rfl
        ⟨held.erase l, .nothing, ?_, ht.nodup.erase l, ?_, trivial⟩
      · simp only [upd]
        split
        · rename_i e; subst e
          rw [(ht.holds _).2 f1]
          simp [Ne.symm hu]
        · rfl
      · simp only [upd_same]; exact f2
      · intro l'
        simp only [upd]
        rw [ht.nodup.mem_erase_iff]
        split
        · rename_i e; simp [e]
        · rename_i e; rw [ht.holds]; simp [e]
    | load site p =>
      cases h
      rcases hf with ⟨_, f⟩ | ⟨f1, f⟩
      · exact others _ (fun u hu => upd_other _ _ hu) (fun _ _ _ => .rfl)
          (fun u hu => upd_other _ _ hu) rfl rfl
          ⟨held, .nothing, by simp only [upd_same]; exact f, ht.nodup, ht.holds, trivial⟩
      · exact others _ (fun u hu => upd_other _ _ hu) (fun _ _ _ => .rfl)
          (fun u hu => upd_other _ _ hu) rfl rfl
          ⟨held, .current p, by simp only [upd_same]; exact f, ht.nodup, ht.holds, f1,
            by simp only [upd_same]⟩
    | deref site p part =>
      simp only at h
      have f : Follows R t held k rest := by
        rcases hf with ⟨_, _, f⟩ | ⟨_, _, f⟩ <;> exact f
      split at h
      · cases h
      · split at h
        · cases h
        · cases h
          refine others _ (fun u hu => upd_other _ _ hu) (fun _ _ _ => .rfl) (fun u hu => rfl)
            rfl rfl ⟨held, k, by simp only [upd_same]; exact f, ht.nodup, ht.holds, ?_⟩
          have := ht.known
          cases k <;> exact this
    | install p =>
      cases h
      obtain ⟨f1, f⟩ := hf
      refine ⟨fun u => ?_, ?_⟩
      · by_cases hu : u = t
        · subst hu
          refine ⟨held, .old p, by simp only [upd_same]; exact f, ht.nodup, ht.holds, f1,
            c.ver p, by simp only [upd_same], by simp only [upd_same], ?_⟩
          cases hfr : c.freed (p, c.ver p) with
          | false => rfl
          | true => exact absurd (hi.freed _ _ hfr) (Nat.lt_irrefl _)
        · obtain ⟨held', k', hu'⟩ := hi.threads u
          obtain ⟨n1, n2⟩ := ht.known_ne hu' f1 hu
          refine ⟨held', k', hu'.other (upd_other _ _ hu) (fun _ => .rfl) (upd_other _ _ hu) ?_
            (fun _ _ _ _ => rfl)⟩
          intro q hq
          refine upd_other _ _ fun e => ?_
          subst e
          rcases hq with rfl | rfl
          · exact n1 rfl
          · exact n2 rfl
      · intro q n hq
        have := hi.freed q n hq
        simp only [upd]
        split
        · rename_i e; subst e; omega
        · exact this
    | free p =>
      obtain ⟨rfl, f⟩ := hf
      obtain ⟨f1, n, g1, g2, g3⟩ := ht.known
      simp only [g2, g3] at h
      cases h
      refine ⟨fun u => ?_, ?_⟩
      · by_cases hu : u = t
        · subst hu
          exact ⟨held, .nothing, by simp only [upd_same]; exact f, ht.nodup, ht.holds, trivial⟩
        · obtain ⟨held', k', hu'⟩ := hi.threads u
          obtain ⟨n1, n2⟩ := ht.known_ne hu' f1 hu
          refine ⟨held', k', hu'.other (upd_other _ _ hu) (fun _ => .rfl) rfl (fun _ _ => rfl) ?_⟩
          intro q m hq _
          refine upd_other _ _ fun e => ?_
          cases e
          exact n2 hq
      · intro q m hq
        simp only [upd] at hq
        split at hq
        · rename_i e; cases e; simp only [g1]; omega
        · exact hi.freed q m hq
    | read v =>
      cases h
      refine others _ (fun u hu => upd_other _ _ hu) (fun _ _ _ => .rfl) (fun u hu => rfl)
        rfl rfl ⟨held, k, by simp only [upd_same]; exact hf.2, ht.nodup, ht.holds, ?_⟩
      have := ht.known
      cases k <;> exact this
    | write v =>
      cases h
      refine others _ (fun u hu => upd_other _ _ hu) (fun _ _ _ => .rfl) (fun u hu => rfl)
        rfl rfl ⟨held, k, by simp only [upd_same]; exact hf.2, ht.nodup, ht.holds, ?_⟩
      have := ht.known
      cases k <;> exact this

/-- An action that is exempt from the rules. -/
def Exempt (R : Rules S T) (t : T) (a : Action S) : Prop :=
  ∃ site p, R.exempt t site p ∧ (a = .load site p ∨ a = .deref site p .fixed)

/-- Only exempt actions use invalid pointers. -/
theorem exec_invalid {R : Rules S T} {c : Config S T} {t : T} (hi : Inv R c)
    (h : exec c t = .invalid) :
    ∃ site p, R.exempt t site p ∧ (c.prog t).head? = some (.deref site p .fixed) := by
  obtain ⟨held, k, ht⟩ := hi.threads t
  unfold exec at h
  cases hp : c.prog t with
  | nil => rw [hp] at h; cases h
  | cons a rest =>
    rw [hp] at h
    have hf := ht.follows
    rw [hp] at hf
    cases a with
    | acquire l => simp only at h; split at h <;> cases h
    | release l => cases h
    | load site p => cases h
    | deref site p part =>
      rcases hf with ⟨f1, rfl, _⟩ | ⟨rfl, _, _⟩
      · exact ⟨site, p, f1, rfl⟩
      · obtain ⟨_, hr⟩ := ht.known
        simp only [hr] at h
        split at h
        · rename_i hfr
          exact absurd (hi.freed _ _ hfr) (Nat.lt_irrefl _)
        · cases h
    | install p => cases h
    | free p =>
      obtain ⟨rfl, _⟩ := hf
      obtain ⟨_, n, g1, g2, g3⟩ := ht.known
      simp [g2, g3] at h
    | read v => cases h
    | write v => cases h

/-- What the next action of a thread says about it. -/
theorem ThreadOk.head {R : Rules S T} {c : Config S T} {t : T} {held : List S.Lock} {k : Known S}
    (h : ThreadOk R c t held k) {a : Action S} (ha : (c.prog t).head? = some a) :
    ∃ as, Follows R t held k (a :: as) := by
  have := h.follows
  cases hp : c.prog t with
  | nil => rw [hp] at ha; cases ha
  | cons b as =>
    rw [hp] at ha this
    cases ha
    exact ⟨as, this⟩

/-- One half of `race_exempt`: `u` is about to write. -/
theorem race_write {R : Rules S T} {c : Config S T} (hi : Inv R c) {t u : T} {a b : Action S}
    (hne : t ≠ u) (ha : (c.prog t).head? = some a) (hb : (c.prog u).head? = some b)
    {loc : Loc S} {w : Bool} (h1 : (loc, w) ∈ touches c t a) (h2 : (loc, true) ∈ touches c u b) :
    Exempt R t a ∧ ∃ p held, R.mayInstall p u held ∧ (b = .install p ∨ b = .free p) := by
  obtain ⟨held, k, ht⟩ := hi.threads t
  obtain ⟨held', k', hu⟩ := hi.threads u
  obtain ⟨as, fa⟩ := ht.head ha
  obtain ⟨bs, fb⟩ := hu.head hb
  cases b with
  | acquire l => simp [touches] at h2
  | release l => simp [touches] at h2
  | load site p => simp [touches] at h2
  | read v => simp [touches] at h2
  | write v =>
    simp only [touches, List.mem_singleton, Prod.mk.injEq, and_true] at h2
    subst h2
    have key : R.may v t held := by
      cases a with
      | read v' =>
        simp only [touches, List.mem_singleton, Prod.mk.injEq, Loc.var.injEq] at h1
        obtain ⟨rfl, _⟩ := h1
        exact fa.1
      | write v' =>
        simp only [touches, List.mem_singleton, Prod.mk.injEq, Loc.var.injEq] at h1
        obtain ⟨rfl, _⟩ := h1
        exact fa.1
      | deref site p part => cases part <;> simp [touches] at h1
      | _ => simp [touches] at h1
    rcases R.may_excl v t held u held' key fb.1 with e | ⟨l, e1, e2⟩
    · exact absurd e hne
    · exact absurd (ht.excl hu e1 e2) hne
  | install p =>
    simp only [touches, List.mem_singleton, Prod.mk.injEq, and_true] at h2
    subst h2
    obtain ⟨g1, _⟩ := fb
    have noLoad : ¬ R.mayLoad p t held := fun hl => by
      rcases R.mayInstall_excl p u held' t held g1 hl with e | ⟨l, e1, e2⟩
      · exact hne e.symm
      · exact hne (ht.excl hu e2 e1)
    cases a with
    | load site p' =>
      simp only [touches, List.mem_singleton, Prod.mk.injEq, Loc.ptr.injEq] at h1
      obtain ⟨rfl, _⟩ := h1
      rcases fa with ⟨f1, _⟩ | ⟨f1, _⟩
      · exact ⟨⟨site, p, f1, .inl rfl⟩, p, held', g1, .inl rfl⟩
      · exact absurd f1 noLoad
    | install p' =>
      simp only [touches, List.mem_singleton, Prod.mk.injEq, Loc.ptr.injEq] at h1
      obtain ⟨rfl, _⟩ := h1
      exact absurd (R.mayInstall_mayLoad _ _ _ fa.1) noLoad
    | deref site p part => cases part <;> simp [touches] at h1
    | _ => simp [touches] at h1
  | deref site p part =>
    cases part with
    | fixed => simp [touches] at h2
    | mutable =>
      rcases fb with ⟨_, f, _⟩ | ⟨rfl, g1, _⟩
      · cases f
      have g1 := g1 rfl
      obtain ⟨_, hr⟩ := hu.known
      simp only [touches, hr, Option.toList_some, List.map_cons, List.map_nil,
        List.mem_singleton, Prod.mk.injEq, and_true] at h2
      subst h2
      cases a with
      | deref site' p' part' =>
        cases part' with
        | fixed => simp [touches] at h1
        | mutable =>
          rcases fa with ⟨_, f, _⟩ | ⟨rfl, g2, _⟩
          · cases f
          have g2 := g2 rfl
          obtain ⟨_, hr'⟩ := ht.known
          simp only [touches, hr', Option.toList_some, List.map_cons, List.map_nil,
            List.mem_singleton, Prod.mk.injEq, Loc.obj.injEq] at h1
          obtain ⟨⟨⟨rfl, _⟩, _⟩, _⟩ := h1
          rcases R.mayUse_excl _ t held u held' g2 g1 with e | ⟨l, e1, e2⟩
          · exact absurd e hne
          · exact absurd (ht.excl hu e1 e2) hne
      | free p' =>
        obtain ⟨rfl, _⟩ := fa
        obtain ⟨g2, n, k1, k2, _⟩ := ht.known
        simp only [touches, k2, Option.toList_some, List.flatMap_cons, List.flatMap_nil,
          List.append_nil, List.mem_cons, List.not_mem_nil, or_false, Prod.mk.injEq,
          Loc.obj.injEq] at h1
        rcases h1 with ⟨⟨⟨rfl, _⟩, _⟩, _⟩ | ⟨⟨⟨rfl, _⟩, _⟩, _⟩
        all_goals exact absurd rfl (ht.known_ne hu g2 (Ne.symm hne)).1
      | _ => simp [touches] at h1
  | free p =>
    obtain ⟨rfl, _⟩ := fb
    obtain ⟨g1, n, k1, k2, _⟩ := hu.known
    have hloc : ∃ part, loc = .obj (p, n) part := by
      simp only [touches, k2, Option.toList_some, List.flatMap_cons, List.flatMap_nil,
        List.append_nil, List.mem_cons, List.not_mem_nil, or_false, Prod.mk.injEq, and_true] at h2
      rcases h2 with rfl | rfl
      · exact ⟨_, rfl⟩
      · exact ⟨_, rfl⟩
    obtain ⟨part, rfl⟩ := hloc
    have notKnown := hu.known_ne ht g1 hne
    cases a with
    | deref site p' part' =>
      rcases fa with ⟨f1, rfl, _⟩ | ⟨rfl, _, _⟩
      · exact ⟨⟨site, p', f1, .inr rfl⟩, p, held', g1, .inr rfl⟩
      · obtain ⟨_, hr⟩ := ht.known
        have : p' = p := by
          cases part' <;>
          · simp only [touches, hr, Option.toList_some, List.map_cons, List.map_nil,
              List.mem_singleton, Prod.mk.injEq, Loc.obj.injEq] at h1
            exact h1.1.1.1.symm
        subst this
        exact absurd rfl notKnown.1
    | free p' =>
      obtain ⟨rfl, _⟩ := fa
      obtain ⟨_, m, _, k2', _⟩ := ht.known
      have : p' = p := by
        simp only [touches, k2', Option.toList_some, List.flatMap_cons, List.flatMap_nil,
          List.append_nil, List.mem_cons, List.not_mem_nil, or_false, Prod.mk.injEq,
          Loc.obj.injEq] at h1
        rcases h1 with h1 | h1 <;> exact h1.1.1.1.symm
      subst this
      exact absurd rfl notKnown.2
    | _ => simp [touches] at h1

/-- In a data race one of the two actions is exempt from the rules, and the other replaces a
pointer or deletes an object. -/
theorem race_exempt {R : Rules S T} {c : Config S T} (hi : Inv R c) {t u : T} {a b : Action S}
    (h : Race c t a u b) :
    (Exempt R t a ∧ ∃ p held, R.mayInstall p u held ∧ (b = .install p ∨ b = .free p)) ∨
    (Exempt R u b ∧ ∃ p held, R.mayInstall p t held ∧ (a = .install p ∨ a = .free p)) := by
  obtain ⟨hne, ha, hb, loc, w, w', h1, h2, hw⟩ := h
  cases w' with
  | true => exact .inl (race_write hi hne ha hb h1 h2)
  | false =>
    cases w with
    | true => exact .inr (race_write hi (Ne.symm hne) hb ha h2 h1)
    | false => cases hw

theorem run_inv {R : Rules S T} {c c' : Config S T} {ts : List T} (hi : Inv R c)
    (h : run c ts = .ok c') : Inv R c' := by
  induction ts generalizing c with
  | nil => cases h; exact hi
  | cons t ts ih =>
    unfold run at h
    cases he : exec c t with
    | stuck => rw [he] at h; exact ih hi h
    | next c1 => rw [he] at h; exact ih (exec_inv hi he) h
    | invalid => rw [he] at h; cases h

theorem run_error {R : Rules S T} {c c' : Config S T} {t : T} {ts : List T} (hi : Inv R c)
    (h : run c ts = .error (c', t)) : Inv R c' ∧ exec c' t = .invalid := by
  induction ts generalizing c with
  | nil => cases h
  | cons u ts ih =>
    unfold run at h
    cases he : exec c u with
    | stuck => rw [he] at h; exact ih hi h
    | next c1 => rw [he] at h; exact ih (exec_inv hi he) h
    | invalid => rw [he] at h; cases h; exact ⟨hi, he⟩

end S2A.Machine
