import Verif.Lemmas.Machine
/-
One thread runs while the others wait.
-/
namespace S2A.Machine
variable {S : Shape} {T : Type} [DecidableEq T]

/-- Actions that a thread can carry out alone, holding the locks `held` at first and `held'` at
last, and what it knows about the pointer it has read. -/
def Solo : List S.Lock → Known S → List (Action S) → List S.Lock → Known S → Prop
  | held, k, [], held', k' => held = held' ∧ k = k'
  | held, _, .acquire l :: as, held', k' => l ∉ held ∧ Solo (l :: held) .nothing as held' k'
  | held, _, .release l :: as, held', k' => Solo (held.erase l) .nothing as held' k'
  | held, _, .load _ p :: as, held', k' => Solo held (.current p) as held' k'
  | held, k, .deref _ p _ :: as, held', k' => k = .current p ∧ Solo held k as held' k'
  | held, _, .install p :: as, held', k' => Solo held (.old p) as held' k'
  | held, k, .free p :: as, held', k' => k = .old p ∧ Solo held .nothing as held' k'
  | held, k, .read _ :: as, held', k' => Solo held k as held' k'
  | held, k, .write _ :: as, held', k' => Solo held k as held' k'

/-- The locks that a program takes. -/
def locksOf : List (Action S) → List S.Lock
  | [] => []
  | .acquire l :: as => l :: locksOf as
  | _ :: as => locksOf as

theorem locksOf_append (as bs : List (Action S)) : locksOf (as ++ bs) = locksOf as ++ locksOf bs := by
  induction as with
  | nil => rfl
  | cons a as ih => cases a <;> simp [locksOf, ih]

theorem Solo.append {as bs : List (Action S)} : ∀ {held k held1 k1 held2 k2},
    Solo held k as held1 k1 → Solo held1 k1 bs held2 k2 → Solo held k (as ++ bs) held2 k2 := by
  induction as with
  | nil => rintro _ _ _ _ _ _ ⟨rfl, rfl⟩ h; exact h
  | cons a as ih =>
    intro held k held1 k1 held2 k2 h h'
    cases a with
    | acquire l => exact ⟨h.1, ih h.2 h'⟩
    | deref site p part => exact ⟨h.1, ih h.2 h'⟩
    | free p => exact ⟨h.1, ih h.2 h'⟩
    | release l => exact ih (held := held.erase l) (k := .nothing) h h'
    | load site p => exact ih (held := held) (k := .current p) h h'
    | install p => exact ih (held := held) (k := .old p) h h'
    | read v => exact ih (held := held) (k := k) h h'
    | write v => exact ih (held := held) (k := k) h h'

/-- What a thread knows about the pointer it has read is true. -/
def KnownTrue (c : Config S T) (t : T) : Known S → Prop
  | .nothing => True
  | .current p => c.reg t = some (p, c.ver p)
  | .old p => ∃ n, c.ver p = n + 1 ∧ c.reg t = some (p, n) ∧ c.freed (p, n) = false

theorem run_cons {c c' : Config S T} {t : T} {ts : List T} (h : exec c t = .next c') :
    run c (t :: ts) = run c' ts := by
  simp [run, h]

theorem run_append {c : Config S T} {s1 s2 : List T} {c1 : Config S T}
    (h : run c s1 = .ok c1) : run c (s1 ++ s2) = run c1 s2 := by
  induction s1 generalizing c with
  | nil => cases h; rfl
  | cons t ts ih =>
    simp only [List.cons_append, run] at h ⊢
    cases he : exec c t with
    | stuck => rw [he] at h; exact ih h
    | next c' => rw [he] at h; exact ih h
    | invalid => rw [he] at h; cases h

theorem upd_upd {α β : Type} [DecidableEq α] (f : α → β) (a : α) (b b' : β) :
    upd (upd f a b) a b' = upd f a b' := by
  funext x
  simp only [upd]
  split <;> rfl

theorem upd_self {α β : Type} [DecidableEq α] (f : α → β) (a : α) : upd f a (f a) = f := by
  funext x
  simp only [upd]
  split
  next h => rw [h]
  next => rfl

/-- A thread that finds its locks free runs. -/
theorem solo_run (t : T) (as : List (Action S)) : ∀ {held k held' k'} (rest : List (Action S))
    (c : Config S T), Solo held k as held' k' → c.prog t = as ++ rest → KnownTrue c t k →
    (∀ p n, c.freed (p, n) = true → n < c.ver p) →
    (∀ l ∈ locksOf as, c.holder l = none ∨ l ∈ held) →
    ∃ c', run c (List.replicate as.length t) = .ok c' ∧
      c'.prog = upd c.prog t rest ∧ (∀ u, u ≠ t → c'.reg u = c.reg u) ∧
      (∀ p n, c'.freed (p, n) = true → n < c'.ver p) ∧ KnownTrue c' t k' ∧
      (∀ l, (c.holder l = none ∨ l ∈ held) → (c'.holder l = none ∨ l ∈ held')) := by
  induction as with
  | nil =>
    rintro held k held' k' rest c ⟨rfl, rfl⟩ hp hk hf hl
    refine ⟨c, rfl, ?_, fun _ _ => rfl, hf, hk, fun l h => h⟩
    rw [List.nil_append] at hp
    rw [← hp, upd_self]
  | cons a as ih =>
    intro held k held' k' rest c h hp hk hf hl
    -- one step, then the rest
    have go : ∀ (held1 : List S.Lock) (k1 : Known S) (c1 : Config S T), exec c t = .next c1 →
        c1.prog = upd c.prog t (as ++ rest) → (∀ u, u ≠ t → c1.reg u = c.reg u) →
        Solo held1 k1 as held' k' → KnownTrue c1 t k1 →
        (∀ p n, c1.freed (p, n) = true → n < c1.ver p) →
        (∀ l, (c.holder l = none ∨ l ∈ held) → (c1.holder l = none ∨ l ∈ held1)) →
        (∀ l ∈ locksOf as, c.holder l = none ∨ l ∈ held) →
        ∃ c', run c (List.replicate (a :: as).length t) = .ok c' ∧
          c'.prog = upd c.prog t rest ∧ (∀ u, u ≠ t → c'.reg u = c.reg u) ∧
          (∀ p n, c'.freed (p, n) = true → n < c'.ver p) ∧ KnownTrue c' t k' ∧
          (∀ l, (c.holder l = none ∨ l ∈ held) → (c'.holder l = none ∨ l ∈ held')) := by
      intro held1 k1 c1 he h1 h2 h3 h4 h5 h6 h7
      obtain ⟨c', g1, g2, g3, g4, g5, g6⟩ := ih rest c1 h3 (by rw [h1, upd_same]) h4 h5
        (fun l hm => h6 l (h7 l hm))
      refine ⟨c', ?_, ?_, fun u hu => (g3 u hu).trans (h2 u hu), g4, g5, fun l hm => g6 l (h6 l hm)⟩
      · rw [List.length_cons, List.replicate_succ, run_cons he, g1]
      · rw [g2, h1, upd_upd]
    have hp' : c.prog t = a :: (as ++ rest) := hp
    cases a with
    | acquire l =>
      have hn : c.holder l = none := (hl l (by simp [locksOf])).resolve_right h.1
      refine go (l :: held) .nothing { c with prog := upd c.prog t (as ++ rest), holder := upd c.holder l (some t) }
        (by simp only [exec, hp', hn]) rfl (fun _ _ => rfl) h.2 trivial hf ?_ ?_
      · intro l' h'
        by_cases e : l' = l
        · subst e; exact .inr (by simp)
        · rcases h' with h' | h'
          · exact .inl (by simpa [upd, e] using h')
          · exact .inr (by simp [h'])
      · exact fun l' hm => hl l' (by simp [locksOf, hm])
    | release l =>
      refine go (held.erase l) .nothing { c with prog := upd c.prog t (as ++ rest), holder := upd c.holder l none }
        (by simp only [exec, hp']) rfl (fun _ _ => rfl) h trivial hf ?_ hl
      intro l' h'
      by_cases e : l' = l
      · subst e; exact .inl (by simp [upd])
      · rcases h' with h' | h'
        · exact .inl (by simpa [upd, e] using h')
        · exact .inr ((List.mem_erase_of_ne e).2 h')
    | load site p =>
      refine go held (.current p) { c with prog := upd c.prog t (as ++ rest), reg := upd c.reg t (some (p, c.ver p)) }
        (by simp only [exec, hp']) rfl (fun u hu => upd_other _ _ hu) h ?_ hf (fun _ h => h) hl
      simp only [KnownTrue, upd_same]
    | deref site p part =>
      obtain ⟨rfl, h⟩ := h
      have hfr : c.freed (p, c.ver p) = false := by
        cases hx : c.freed (p, c.ver p) with
        | false => rfl
        | true => have := hf _ _ hx; omega
      have hk' : c.reg t = some (p, c.ver p) := hk
      refine go held (.current p) { c with prog := upd c.prog t (as ++ rest) }
        (by simp only [exec, hp', hk', hfr]; rfl) rfl (fun _ _ => rfl) h hk hf (fun _ h => h) hl
    | install p =>
      have hfr : c.freed (p, c.ver p) = false := by
        cases hx : c.freed (p, c.ver p) with
        | false => rfl
        | true => have := hf _ _ hx; omega
      refine go held (.old p) { c with prog := upd c.prog t (as ++ rest), reg := upd c.reg t (some (p, c.ver p)), ver := upd c.ver p (c.ver p + 1) }
        (by simp only [exec, hp']) rfl (fun u hu => upd_other _ _ hu) h ?_ ?_ (fun _ h => h) hl
      · exact ⟨c.ver p, upd_same _ _ _, upd_same _ _ _, hfr⟩
      · intro q n hq
        have := hf q n hq
        by_cases e : q = p
        · subst e
          show n < upd c.ver q (c.ver q + 1) q
          rw [upd_same]; omega
        · show n < upd c.ver p _ q
          rw [upd_other _ _ e]; exact this
    | free p =>
      obtain ⟨rfl, h⟩ := h
      obtain ⟨n, hv, hr, hfr⟩ := hk
      refine go held .nothing { c with prog := upd c.prog t (as ++ rest), freed := upd c.freed (p, n) true }
        (by simp only [exec, hp', hr, hfr]; rfl) rfl (fun _ _ => rfl) h trivial ?_ (fun _ h => h) hl
      intro q m hq
      by_cases e : (q, m) = (p, n)
      · cases e
        show n < c.ver p
        omega
      · have : upd c.freed (p, n) true (q, m) = c.freed (q, m) := upd_other _ _ e
        exact hf q m (by rw [← this]; exact hq)
    | read v =>
      exact go held k { c with prog := upd c.prog t (as ++ rest) } (by simp only [exec, hp']) rfl
        (fun _ _ => rfl) h (by cases k <;> exact hk) hf (fun _ h => h) hl
    | write v =>
      exact go held k { c with prog := upd c.prog t (as ++ rest) } (by simp only [exec, hp']) rfl
        (fun _ _ => rfl) h (by cases k <;> exact hk) hf (fun _ h => h) hl

/-- A thread reads a pointer, another one replaces it and deletes the object, the first uses it. -/
theorem stale_use {c : Config S T} {t u : T} (htu : t ≠ u) {p p' p'' : S.Ptr} {s s' : S.Site}
    {part : Part} {as bs : List (Action S)} (ht : c.prog t = .load s p :: .deref s' p' part :: as)
    (hu : c.prog u = .install p :: .free p'' :: bs)
    (hf : ∀ p n, c.freed (p, n) = true → n < c.ver p) :
    ∃ c', run c [t, u, u, t] = .error (c', t) := by
  have hfr : c.freed (p, c.ver p) = false := by
    cases hx : c.freed (p, c.ver p) with
    | false => rfl
    | true => have := hf _ _ hx; omega
  have hut : u ≠ t := htu.symm
  simp [run, exec, ht, hu, upd, htu, hut, hfr]

/-- A program that follows the rules, of a thread without exemptions. -/
theorem Follows.solo {R : Rules S T} {t : T} (hx : ∀ site p, ¬ R.exempt t site p)
    {as : List (Action S)} : ∀ {held k} {rest : List (Action S)}, Follows R t held k (as ++ rest) →
    ∃ held' k', Solo held k as held' k' ∧ Follows R t held' k' rest := by
  induction as with
  | nil => intro held k rest h; exact ⟨held, k, ⟨rfl, rfl⟩, h⟩
  | cons a as ih =>
    intro held k rest h
    cases a with
    | acquire l => obtain ⟨x, y, h1, h2⟩ := ih h.2.2; exact ⟨x, y, ⟨h.1, h1⟩, h2⟩
    | release l => obtain ⟨x, y, h1, h2⟩ := ih h.2; exact ⟨x, y, h1, h2⟩
    | load site p =>
      rcases h with h | h
      · exact absurd h.1 (hx _ _)
      · obtain ⟨x, y, h1, h2⟩ := ih h.2; exact ⟨x, y, h1, h2⟩
    | deref site p part =>
      rcases h with h | h
      · exact absurd h.1 (hx _ _)
      · obtain ⟨x, y, h1, h2⟩ := ih h.2.2; exact ⟨x, y, ⟨h.1, h1⟩, h2⟩
    | install p => obtain ⟨x, y, h1, h2⟩ := ih h.2; exact ⟨x, y, h1, h2⟩
    | free p => obtain ⟨x, y, h1, h2⟩ := ih h.2; exact ⟨x, y, ⟨h.1, h1⟩, h2⟩
    | read v => obtain ⟨x, y, h1, h2⟩ := ih h.2; exact ⟨x, y, h1, h2⟩
    | write v => obtain ⟨x, y, h1, h2⟩ := ih h.2; exact ⟨x, y, h1, h2⟩

/-- A block leaves no locks taken. -/
theorem Block.solo {R : Rules S T} {t : T} (hx : ∀ site p, ¬ R.exempt t site p)
    {as : List (Action S)} (h : Block R t [] as) : ∃ k', Solo [] .nothing as [] k' := by
  obtain ⟨held', k', h1, h2⟩ := Follows.solo hx (h .nothing [] rfl)
  cases show held' = [] from h2
  exact ⟨k', h1⟩

/-- What is left to do is what is left of the program. -/
theorem run_suffix {c c' : Config S T} {ts : List T} (h : run c ts = .ok c') (t : T) :
    ∃ pre, c.prog t = pre ++ c'.prog t := by
  induction ts generalizing c with
  | nil => cases h; exact ⟨[], rfl⟩
  | cons u us ih =>
    simp only [run] at h
    cases he : exec c u with
    | stuck => rw [he] at h; exact ih h
    | invalid => rw [he] at h; cases h
    | next c1 =>
      rw [he] at h
      obtain ⟨pre, hp⟩ := ih h
      have : ∃ pre, c.prog t = pre ++ c1.prog t := by
        unfold exec at he
        cases hu : c.prog u with
        | nil => rw [hu] at he; cases he
        | cons a rest =>
          rw [hu] at he
          have key : c1.prog = upd c.prog u rest → ∃ pre, c.prog t = pre ++ c1.prog t := by
            intro e
            rw [e]
            by_cases ht : t = u
            · subst ht; rw [upd_same]; exact ⟨[a], hu⟩
            · rw [upd_other _ _ ht]; exact ⟨[], rfl⟩
          cases a with
          | acquire l =>
            simp only at he
            split at he <;> cases he
            exact key rfl
          | deref site p part =>
            simp only at he
            split at he
            · cases he
            · split at he <;> cases he
              exact key rfl
          | free p =>
            simp only at he
            split at he
            · cases he
            · split at he <;> cases he
              exact key rfl
          | _ => cases he; exact key rfl
      obtain ⟨pre', hp'⟩ := this
      exact ⟨pre' ++ pre, by rw [hp', hp, List.append_assoc]⟩

theorem run_error_suffix {c c' : Config S T} {ts : List T} {v : T} (h : run c ts = .error (c', v))
    (t : T) : ∃ pre, c.prog t = pre ++ c'.prog t := by
  have : ∃ ts', run c ts' = .ok c' := by
    induction ts generalizing c with
    | nil => cases h
    | cons u us ih =>
      simp only [run] at h
      cases he : exec c u with
      | stuck => rw [he] at h; exact ih h
      | invalid => rw [he] at h; cases h; exact ⟨[], rfl⟩
      | next c1 =>
        rw [he] at h
        obtain ⟨ts', hh⟩ := ih h
        exact ⟨u :: ts', by simp [run, he, hh]⟩
  obtain ⟨ts', h'⟩ := this
  exact run_suffix h' t

end S2A.Machine
