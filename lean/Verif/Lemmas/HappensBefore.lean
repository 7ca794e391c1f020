import Verif.Lemmas.Machine
import Verif.Lemmas.Solo
import Verif.Spec.HappensBefore
/-
Programs that follow the rules have no data races, and states with a race lead to one.
-/
namespace S2A.Machine
variable {S : Shape} {T : Type} [DecidableEq T]

/-- Every step of a schedule is made in a state with the invariant, and what comes from it on is a
schedule from that state. -/
theorem trace_drop {R : Rules S T} {c : Config S T} {ts : List T} (hi : Inv R c) {i : Nat}
    {e : Made S T} (h : (trace c ts)[i]? = some e) :
    Inv R e.before ∧ (∃ us, (trace c ts).drop i = trace e.before us) ∧
      ∃ us, run c us = .ok e.before := by
  induction ts generalizing c i with
  | nil => simp [trace] at h
  | cons t ts ih =>
    rw [trace] at h ⊢
    cases he : exec c t with
    | stuck =>
      simp only [he] at h ⊢
      exact ih hi h
    | invalid =>
      simp only [he] at h ⊢
      cases i with
      | zero =>
        simp only [List.getElem?_cons_zero, Option.some.injEq] at h
        subst h
        exact ⟨hi, ⟨[t], by simp [trace, he]⟩, [], rfl⟩
      | succ i => simp at h
    | next c' =>
      simp only [he] at h ⊢
      cases i with
      | zero =>
        simp only [List.getElem?_cons_zero, Option.some.injEq] at h
        subst h
        exact ⟨hi, ⟨t :: ts, by simp [trace, he]⟩, [], rfl⟩
      | succ i =>
        simp only [List.getElem?_cons_succ] at h
        obtain ⟨h1, h2, us, h3⟩ := ih (exec_inv hi he) h
        exact ⟨h1, by simpa using h2, t :: us, by simp [run, he, h3]⟩

/-- How a step changes who holds a lock. -/
theorem exec_holder {c c' : Config S T} {t : T} (h : exec c t = .next c') (l : S.Lock) :
    c'.holder l = c.holder l ∨
      ((c.prog t).head? = some (.acquire l) ∧ c'.holder l = some t) ∨
      ((c.prog t).head? = some (.release l) ∧ c'.holder l = none) := by
  unfold exec at h
  cases hp : c.prog t with
  | nil => rw [hp] at h; cases h
  | cons a rest =>
    rw [hp] at h
    cases a with
    | acquire l' =>
      simp only at h
      split at h
      · cases h
      · cases h
        by_cases e : l = l'
        · subst e
          exact .inr (.inl ⟨rfl, upd_same _ _ _⟩)
        · exact .inl (upd_other _ _ e)
    | release l' =>
      cases h
      by_cases e : l = l'
      · subst e
        exact .inr (.inr ⟨rfl, upd_same _ _ _⟩)
      · exact .inl (upd_other _ _ e)
    | deref site p part =>
      simp only at h
      split at h
      · cases h
      · split at h
        · cases h
        · cases h; exact .inl rfl
    | free p =>
      simp only at h
      split at h
      · cases h
      · split at h
        · cases h
        · cases h; exact .inl rfl
    | _ => cases h; exact .inl rfl

/-- Who holds a lock later, but not now, acquires it in between. -/
theorem later_acquires {c : Config S T} {ts : List T} {l : S.Lock} {u : T} {j : Nat}
    {f : Made S T} (hc : c.holder l ≠ some u) (hj : (trace c ts)[j]? = some f)
    (hf : f.before.holder l = some u) :
    ∃ a g, a < j ∧ (trace c ts)[a]? = some g ∧ g.thread = u ∧ g.action = some (.acquire l) := by
  induction ts generalizing c j with
  | nil => simp [trace] at hj
  | cons t ts ih =>
    rw [trace] at hj ⊢
    cases he : exec c t with
    | stuck =>
      simp only [he] at hj ⊢
      exact ih hc hj
    | invalid =>
      simp only [he] at hj ⊢
      cases j with
      | zero =>
        simp only [List.getElem?_cons_zero, Option.some.injEq] at hj
        subst hj
        exact absurd hf hc
      | succ j => simp at hj
    | next c' =>
      simp only [he] at hj ⊢
      cases j with
      | zero =>
        simp only [List.getElem?_cons_zero, Option.some.injEq] at hj
        subst hj
        exact absurd hf hc
      | succ j =>
        simp only [List.getElem?_cons_succ] at hj
        by_cases h' : c'.holder l = some u
        · rcases exec_holder he l with h | ⟨h, h2⟩ | ⟨_, h⟩
          · rw [h] at h'; exact absurd h' hc
          · rw [h2] at h'
            exact ⟨0, ⟨c, t⟩, Nat.succ_pos _, rfl, Option.some.inj h', h⟩
          · rw [h] at h'; cases h'
        · obtain ⟨a, g, h1, h2, h3⟩ := ih h' hj
          exact ⟨a + 1, g, Nat.succ_lt_succ h1, by simpa using h2, h3⟩

/-- If one thread holds a lock now and another one later, the first releases it and then the second
acquires it. -/
theorem passed_on {R : Rules S T} {c : Config S T} {ts : List T} (hi : Inv R c) {l : S.Lock}
    {t u : T} (htu : t ≠ u) {j : Nat} {f : Made S T} (hc : c.holder l = some t)
    (hj : (trace c ts)[j]? = some f) (hf : f.before.holder l = some u) :
    ∃ r a e g, r < a ∧ a < j ∧ (trace c ts)[r]? = some e ∧ (trace c ts)[a]? = some g ∧
      e.thread = t ∧ e.action = some (.release l) ∧ g.thread = u ∧
      g.action = some (.acquire l) := by
  induction ts generalizing c j with
  | nil => simp [trace] at hj
  | cons v ts ih =>
    have first : f.before ≠ c := fun e => by
      rw [e, hc] at hf
      exact htu (Option.some.inj hf)
    rw [trace] at hj ⊢
    cases he : exec c v with
    | stuck =>
      simp only [he] at hj ⊢
      exact ih hi hc hj
    | invalid =>
      simp only [he] at hj ⊢
      cases j with
      | zero =>
        simp only [List.getElem?_cons_zero, Option.some.injEq] at hj
        subst hj
        exact absurd rfl first
      | succ j => simp at hj
    | next c' =>
      simp only [he] at hj ⊢
      cases j with
      | zero =>
        simp only [List.getElem?_cons_zero, Option.some.injEq] at hj
        subst hj
        exact absurd rfl first
      | succ j =>
        simp only [List.getElem?_cons_succ] at hj
        rcases exec_holder he l with h | ⟨h, _⟩ | ⟨h, h2⟩
        · obtain ⟨r, a, e, g, h1, h2, h3, h4, h5⟩ := ih (exec_inv hi he) (h.trans hc) hj
          exact ⟨r + 1, a + 1, e, g, Nat.succ_lt_succ h1, Nat.succ_lt_succ h2, by simpa using h3,
            by simpa using h4, h5⟩
        · -- a held lock is not acquired
          exfalso
          unfold exec at he
          cases hp : c.prog v with
          | nil => rw [hp] at h; cases h
          | cons a rest =>
            rw [hp] at h he
            cases h
            simp only [hc] at he
            cases he
        · -- only the holder releases
          have hv : v = t := by
            obtain ⟨held, k, ho⟩ := hi.threads v
            obtain ⟨as, fa⟩ := ho.head h
            have := (ho.holds l).2 fa.1
            rw [hc] at this
            exact (Option.some.inj this).symm
          obtain ⟨a, g, h3, h4, h5, h6⟩ := later_acquires (u := u) (by rw [h2]; simp) hj hf
          exact ⟨0, a + 1, ⟨c, v⟩, g, Nat.succ_pos _, Nat.succ_lt_succ h3, rfl, by simpa using h4,
            hv, h, h5, h6⟩

/-- What a thread must be allowed to do that touches a place. -/
def Entitled (R : Rules S T) (t : T) (held : List S.Lock) (w : Bool) : Loc S → Prop
  | .var v => R.may v t held
  | .ptr p => R.mayLoad p t held ∧ (w = true → R.mayInstall p t held)
  | .obj o part => R.mayLoad o.1 t held ∧
    (R.mayInstall o.1 t held ∨ (part = .fixed ∧ w = false) ∨
      (part = .mutable ∧ R.mayUse o.1 t held))

/-- A step that touches memory is exempt, or the thread is entitled to it by locks it holds. -/
theorem touched_entitled {R : Rules S T} {e : Made S T} (hi : Inv R e.before) {loc : Loc S}
    {w : Bool} (h : (loc, w) ∈ e.touched) :
    (∃ a, e.action = some a ∧ Exempt R e.thread a) ∨
      ∃ held, (∀ l ∈ held, e.before.holder l = some e.thread) ∧ Entitled R e.thread held w loc := by
  obtain ⟨c, t⟩ := e
  have hi : Inv R c := hi
  obtain ⟨held, k, ht⟩ := hi.threads t
  unfold Made.touched at h
  cases ha : Made.action (⟨c, t⟩ : Made S T) with
  | none => rw [ha] at h; cases h
  | some a =>
    rw [ha] at h
    obtain ⟨as, fa⟩ := ht.head ha
    have hh : ∀ l ∈ held, c.holder l = some t := fun l hl => (ht.holds l).2 hl
    cases a with
    | acquire l => simp [touches] at h
    | release l => simp [touches] at h
    | load site p =>
      simp only [touches, List.mem_singleton, Prod.mk.injEq] at h
      obtain ⟨rfl, rfl⟩ := h
      rcases fa with ⟨f1, _⟩ | ⟨f1, _⟩
      · exact .inl ⟨_, rfl, site, p, f1, .inl rfl⟩
      · exact .inr ⟨held, hh, f1, fun h => by cases h⟩
    | deref site p part =>
      rcases fa with ⟨f1, rfl, _⟩ | ⟨rfl, f1, _⟩
      · exact .inl ⟨_, rfl, site, p, f1, .inr rfl⟩
      · obtain ⟨hl, hr⟩ := ht.known
        cases part with
        | fixed =>
          simp only [touches, hr, Option.toList_some, List.map_cons, List.map_nil,
            List.mem_singleton, Prod.mk.injEq] at h
          obtain ⟨rfl, rfl⟩ := h
          exact .inr ⟨held, hh, hl, .inr (.inl ⟨rfl, rfl⟩)⟩
        | mutable =>
          simp only [touches, hr, Option.toList_some, List.map_cons, List.map_nil,
            List.mem_singleton, Prod.mk.injEq] at h
          obtain ⟨rfl, rfl⟩ := h
          exact .inr ⟨held, hh, hl, .inr (.inr ⟨rfl, f1 rfl⟩)⟩
    | install p =>
      simp only [touches, List.mem_singleton, Prod.mk.injEq] at h
      obtain ⟨rfl, rfl⟩ := h
      exact .inr ⟨held, hh, R.mayInstall_mayLoad _ _ _ fa.1, fun _ => fa.1⟩
    | free p =>
      obtain ⟨rfl, _⟩ := fa
      obtain ⟨g1, n, _, g2, _⟩ := ht.known
      simp only [touches, g2, Option.toList_some, List.flatMap_cons, List.flatMap_nil,
        List.append_nil, List.mem_cons, List.not_mem_nil, or_false, Prod.mk.injEq] at h
      rcases h with ⟨rfl, rfl⟩ | ⟨rfl, rfl⟩ <;>
        exact .inr ⟨held, hh, R.mayInstall_mayLoad _ _ _ g1, .inl g1⟩
    | read v =>
      simp only [touches, List.mem_singleton, Prod.mk.injEq] at h
      obtain ⟨rfl, rfl⟩ := h
      exact .inr ⟨held, hh, fa.1⟩
    | write v =>
      simp only [touches, List.mem_singleton, Prod.mk.injEq] at h
      obtain ⟨rfl, rfl⟩ := h
      exact .inr ⟨held, hh, fa.1⟩

/-- Threads entitled to accesses that conflict have a lock in common. -/
theorem entitled_excl {R : Rules S T} {t u : T} {held held' : List S.Lock} {w w' : Bool}
    {loc : Loc S} (h : Entitled R t held w loc) (h' : Entitled R u held' w' loc)
    (hw : (w || w') = true) : t = u ∨ ∃ l, l ∈ held ∧ l ∈ held' := by
  have inst : ∀ p, R.mayInstall p t held → R.mayLoad p u held' →
      t = u ∨ ∃ l, l ∈ held ∧ l ∈ held' := fun p => R.mayInstall_excl p t held u held'
  have inst' : ∀ p, R.mayInstall p u held' → R.mayLoad p t held →
      t = u ∨ ∃ l, l ∈ held ∧ l ∈ held' := fun p h1 h2 => by
    rcases R.mayInstall_excl p u held' t held h1 h2 with e | ⟨l, e1, e2⟩
    · exact .inl e.symm
    · exact .inr ⟨l, e2, e1⟩
  cases loc with
  | var v => exact R.may_excl v t held u held' h h'
  | ptr p =>
    cases w with
    | true => exact inst p (h.2 rfl) h'.1
    | false =>
      simp only [Bool.false_or] at hw
      exact inst' p (h'.2 hw) h.1
  | obj o part =>
    obtain ⟨h1, h2⟩ := h
    obtain ⟨h1', h2'⟩ := h'
    rcases h2 with h2 | h2 | h2
    · exact inst _ h2 h1'
    · rcases h2' with h2' | h2' | h2'
      · exact inst' _ h2' h1
      · rw [h2.2, h2'.2] at hw; cases hw
      · rw [h2.1] at h2'; cases h2'.1
    · rcases h2' with h2' | h2' | h2'
      · exact inst' _ h2' h1
      · rw [h2.1] at h2'; cases h2'.1
      · exact R.mayUse_excl _ t held u held' h2.2 h2'.2

/-- Under the rules, conflicting steps are ordered but for exempt ones. -/
theorem ordered_or_exempt {R : Rules S T} {prog : T → List (Action S)}
    (h : ∀ t, Follows R t [] .nothing (prog t)) {schedule : List T} {i j : Nat} {e f : Made S T}
    (hij : i < j) (he : (trace (.init prog) schedule)[i]? = some e)
    (hf : (trace (.init prog) schedule)[j]? = some f) (hc : Conflict e f) :
    HappensBefore (trace (.init prog) schedule) i j ∨
      (∃ a, e.action = some a ∧ Exempt R e.thread a) ∨
      ∃ a, f.action = some a ∧ Exempt R f.thread a := by
  by_cases htu : e.thread = f.thread
  · exact .inl (.sequenced he hf hij htu)
  obtain ⟨hie, ⟨us, hd⟩, _⟩ := trace_drop (Inv.init h) he
  obtain ⟨hif, _, _⟩ := trace_drop (Inv.init h) hf
  obtain ⟨loc, w, w', h1, h2, hw⟩ := hc
  rcases touched_entitled hie h1 with h3 | ⟨held, hh, h3⟩
  · exact .inr (.inl h3)
  rcases touched_entitled hif h2 with h4 | ⟨held', hh', h4⟩
  · exact .inr (.inr h4)
  refine .inl ?_
  rcases entitled_excl h3 h4 hw with h5 | ⟨l, l1, l2⟩
  · exact absurd h5 htu
  have hf' : (trace e.before us)[j - i]? = some f := by
    rw [← hd, List.getElem?_drop]
    rw [show i + (j - i) = j by omega]
    exact hf
  obtain ⟨r, a, x, y, g1, g2, g3, g4, g5, g6, g7, g8⟩ :=
    passed_on hie htu (hh l l1) hf' (hh' l l2)
  rw [← hd, List.getElem?_drop] at g3 g4
  have r0 : r ≠ 0 := by
    rintro rfl
    rw [Nat.add_zero, he] at g3
    cases g3
    unfold Made.touched at h1
    rw [g6] at h1
    cases h1
  refine .trans (.sequenced he g3 (by omega) g5.symm) (.trans
    (.synchronized g3 g4 (by omega) g6 g8) (.sequenced g4 hf (by omega) g7))

theorem drf_of_follows {R : Rules S T} {prog : T → List (Action S)}
    (hx : ∀ t site p, ¬ R.exempt t site p) (h : ∀ t, Follows R t [] .nothing (prog t)) :
    DataRaceFree prog := by
  intro schedule i j e f hij he hf hc
  rcases ordered_or_exempt h hij he hf hc with h1 | ⟨_, _, _, _, h1, _⟩ | ⟨_, _, _, _, h1, _⟩
  · exact h1
  · exact absurd h1 (hx _ _ _)
  · exact absurd h1 (hx _ _ _)

/-! ### The other direction -/

theorem HappensBefore.lt {steps : List (Made S T)} {i j : Nat} (h : HappensBefore steps i j) :
    i < j := by
  induction h with
  | sequenced _ _ h _ => exact h
  | synchronized _ _ h _ _ => exact h
  | trans _ _ h1 h2 => omega

/-- One step after another: they are ordered only if directly. -/
theorem HappensBefore.next {steps : List (Made S T)} {i : Nat} {e f : Made S T}
    (h : HappensBefore steps i (i + 1)) (he : steps[i]? = some e) (hf : steps[i + 1]? = some f) :
    e.thread = f.thread ∨ ∃ l, e.action = some (.release l) := by
  cases h with
  | sequenced h1 h2 _ h =>
    rw [he] at h1
    rw [hf] at h2
    cases h1
    cases h2
    exact .inl h
  | synchronized h1 h2 _ h _ =>
    rw [he] at h1
    cases h1
    exact .inr ⟨_, h⟩
  | trans h1 h2 =>
    have := h1.lt
    have := h2.lt
    omega

theorem trace_append {c c' : Config S T} {ts us : List T} (h : run c ts = .ok c') :
    trace c (ts ++ us) = trace c ts ++ trace c' us := by
  induction ts generalizing c with
  | nil => cases h; rfl
  | cons t ts ih =>
    simp only [List.cons_append, run, trace] at h ⊢
    cases he : exec c t with
    | stuck => simp only [he] at h ⊢; exact ih h
    | next c1 => simp only [he] at h ⊢; rw [ih h]; rfl
    | invalid => simp only [he] at h; cases h

/-- What a step does not change for the other threads. -/
theorem exec_other {c c' : Config S T} {t u : T} (h : exec c t = .next c') (htu : u ≠ t) :
    c'.prog u = c.prog u ∧ c'.reg u = c.reg u := by
  unfold exec at h
  cases hp : c.prog t with
  | nil => rw [hp] at h; cases h
  | cons a rest =>
    rw [hp] at h
    cases a with
    | acquire l =>
      simp only at h
      split at h
      · cases h
      · cases h; exact ⟨upd_other _ _ htu, rfl⟩
    | deref site p part =>
      simp only at h
      split at h
      · cases h
      · split at h
        · cases h
        · cases h; exact ⟨upd_other _ _ htu, rfl⟩
    | free p =>
      simp only at h
      split at h
      · cases h
      · split at h
        · cases h
        · cases h; exact ⟨upd_other _ _ htu, rfl⟩
    | load site p => cases h; exact ⟨upd_other _ _ htu, upd_other _ _ htu⟩
    | install p => cases h; exact ⟨upd_other _ _ htu, upd_other _ _ htu⟩
    | _ => cases h; exact ⟨upd_other _ _ htu, rfl⟩

/-- An action that needs no valid pointer. -/
def Action.plain : Action S → Bool
  | .deref _ _ _ => false
  | .free _ => false
  | _ => true

/-- A state in which two threads are about to touch the same memory leads to a data race. -/
theorem race_not_drf {prog : T → List (Action S)} {t u : T} {a b : Action S} (ha : a.plain = true)
    (h : ∃ schedule c, run (.init prog) schedule = .ok c ∧ Race c t a u b) :
    ¬ DataRaceFree prog := by
  obtain ⟨sch, c, hr, hne, h1, h2, loc, w, w', h3, h4, hw⟩ := h
  intro hd
  -- the first step
  have hnext : ∃ c', exec c t = .next c' := by
    unfold exec
    cases hp : c.prog t with
    | nil => rw [hp] at h1; cases h1
    | cons x rest =>
      rw [hp] at h1
      cases h1
      cases a with
      | acquire l => simp [touches] at h3
      | deref site p part => cases ha
      | free p => cases ha
      | _ => exact ⟨_, rfl⟩
  obtain ⟨c', hn⟩ := hnext
  obtain ⟨hp', hreg⟩ := exec_other hn (Ne.symm hne)
  have h2' : (c'.prog u).head? = some b := by rw [hp']; exact h2
  have ht : touches c' u b = touches c u b := by
    cases b with
    | deref site p part => cases part <;> simp only [touches, hreg]
    | free p => simp only [touches, hreg]
    | _ => rfl
  -- the second one
  have htr : trace c [t, u] = [⟨c, t⟩, ⟨c', u⟩] := by
    simp only [trace, hn]
    cases he : exec c' u with
    | next c'' => rfl
    | invalid => rfl
    | stuck =>
      exfalso
      unfold exec at he
      cases hp : c'.prog u with
      | nil => rw [hp] at h2'; cases h2'
      | cons x rest =>
        rw [hp] at h2' he
        cases h2'
        cases b with
        | acquire l => simp [touches] at h4
        | deref site p part =>
          simp only at he
          split at he
          · cases he
          · split at he <;> cases he
        | free p =>
          simp only at he
          split at he
          · cases he
          · split at he <;> cases he
        | _ => cases he
  have hall : trace (.init prog) (sch ++ [t, u]) =
      trace (.init prog) sch ++ [⟨c, t⟩, ⟨c', u⟩] := by rw [trace_append hr, htr]
  have g1 : (trace (.init prog) (sch ++ [t, u]))[(trace (.init prog) sch).length]? =
      some ⟨c, t⟩ := by rw [hall]; simp
  have g2 : (trace (.init prog) (sch ++ [t, u]))[(trace (.init prog) sch).length + 1]? =
      some ⟨c', u⟩ := by rw [hall]; simp
  have := hd (sch ++ [t, u]) _ _ _ _ (Nat.lt_succ_self _) g1 g2
    ⟨loc, w, w', by simpa [Made.touched, Made.action, h1] using h3,
      by simpa [Made.touched, Made.action, h2', ht] using h4, hw⟩
  rcases this.next g1 g2 with e | ⟨l, e⟩
  · exact hne e
  · simp only [Made.action, h1, Option.some.injEq] at e
    subst e
    cases h3

end S2A.Machine
