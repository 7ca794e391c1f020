import Verif.Spec.Options
/- Histories of options objects. -/
namespace S2A.TlsOptions
open Spec (Shows pasts pastStep)

theorem shows_default : Shows default [] := by
  constructor <;> simp [default]

theorem mem_insertId {s : List Identity} {i j : Identity} :
    j ∈ insertId s i ↔ j ∈ s ∨ j = i := by
  unfold insertId
  split <;> simp_all

theorem nodup_insertId {s : List Identity} (i : Identity) (h : s.Nodup) :
    (insertId s i).Nodup := by
  unfold insertId
  split
  · exact h
  · rename_i hi
    rw [List.nodup_append]
    refine ⟨h, by simp, ?_⟩
    intro a ha b hb
    simp only [List.mem_singleton] at hb
    subst hb
    rintro rfl
    exact hi ha

theorem shows_apply {o : TlsOptions} {h : List Setter} (hs : Shows o h) (s : Setter) :
    Shows (o.apply s) (h ++ [s]) := by
  obtain ⟨h1, h2, h3, h4, h5, h6, h7, h8⟩ := hs
  cases s <;> constructor <;>
    simp [apply, Spec.setsMin, Spec.setsMax, Spec.setsAddress, Spec.addsCiphersuite,
      Spec.addsLocal, Spec.addsTarget, mem_insertId, nodup_insertId, Identity.fromSpiffeId,
      Identity.fromHostname, Identity.fromUid, *]

theorem copy_ciphersuites (cs : List Ciphersuite) (n : TlsOptions) :
    cs.foldl (fun n c => n.apply (.addCiphersuite c)) n =
      { n with ciphersuites := n.ciphersuites ++ cs } := by
  induction cs generalizing n with
  | nil => simp
  | cons c cs ih => rw [List.foldl_cons, ih]; simp [apply]

theorem copy_eq (o : TlsOptions) : o.copy = o := by
  unfold copy
  rw [copy_ciphersuites]
  simp [apply, default]

/-- The objects and the pasts have the same length and agree. -/
def Agree (objs : List TlsOptions) (ps : List (List Setter)) : Prop :=
  objs.length = ps.length ∧ ∀ (i : Nat) o h, objs[i]? = some o → ps[i]? = some h → Shows o h

theorem agree_step {objs ps} (h : Agree objs ps) (op : Op) :
    Agree (step objs op) (pastStep ps op) := by
  obtain ⟨hl, h⟩ := h
  have grow : ∀ o p, Shows o p → Agree (objs ++ [o]) (ps ++ [p]) := by
    intro o p hs
    refine ⟨by simp [hl], ?_⟩
    intro i o' p' h1 h2
    by_cases hi : i < objs.length
    · rw [List.getElem?_append_left hi] at h1
      rw [List.getElem?_append_left (hl ▸ hi)] at h2
      exact h i o' p' h1 h2
    · rw [List.getElem?_append_right (by omega)] at h1
      rw [List.getElem?_append_right (by omega)] at h2
      rw [hl] at h1
      cases hk : i - ps.length with
      | zero => rw [hk] at h1 h2; simp at h1 h2; subst h1 h2; exact hs
      | succ k => rw [hk] at h1; simp at h1
  cases op with
  | create => exact grow _ _ shows_default
  | copy i =>
    simp only [step, pastStep]
    cases ho : objs[i]? with
    | none =>
      have : ps[i]? = none := by
        rw [List.getElem?_eq_none_iff] at ho ⊢; omega
      simpa [this] using ⟨hl, h⟩
    | some o =>
      obtain ⟨p, hp⟩ : ∃ p, ps[i]? = some p := by
        have : i < objs.length := (List.getElem?_eq_some_iff.1 ho).1
        exact ⟨_, List.getElem?_eq_getElem (hl ▸ this)⟩
      rw [hp]
      simp only [Option.toList]
      rw [copy_eq]
      exact grow _ _ (h i o p ho hp)
  | set i s =>
    refine ⟨by simp [step, pastStep, hl], ?_⟩
    intro j o p h1 h2
    simp only [step, pastStep, List.getElem?_modify] at h1 h2
    by_cases hij : i = j
    · subst hij
      simp only [if_pos] at h1 h2
      cases ho : objs[i]? with
      | none => simp [ho] at h1
      | some o' =>
        cases hp : ps[i]? with
        | none => simp [hp] at h2
        | some p' =>
          simp [ho] at h1
          simp [hp] at h2
          subst h1 h2
          exact shows_apply (h i o' p' ho hp) s
    · simp only [if_neg hij, Option.map_eq_map, Option.map_id'] at h1 h2
      exact h j o p (by simpa using h1) (by simpa using h2)

theorem agree_run (ops : List Op) : Agree (run ops) (pasts ops) := by
  suffices ∀ objs ps, Agree objs ps →
      Agree (ops.foldl step objs) (ops.foldl pastStep ps) from this [] [] ⟨rfl, by simp⟩
  induction ops with
  | nil => intro _ _ h; exact h
  | cons op ops ih => intro _ _ h; exact ih _ _ (agree_step h op)

theorem foldl_step_untouched (rest : List Op) (j : Nat) (objs : List TlsOptions) (o : TlsOptions)
    (h : objs[j]? = some o) (hn : ∀ s, Op.set j s ∉ rest) :
    (rest.foldl step objs)[j]? = some o := by
  induction rest generalizing objs with
  | nil => exact h
  | cons op rest ih =>
    refine ih _ ?_ (fun s hs => hn s (List.mem_cons_of_mem _ hs))
    have hj : j < objs.length := (List.getElem?_eq_some_iff.1 h).1
    cases op with
    | create => simp [step, List.getElem?_append_left hj, h]
    | copy i =>
      simp only [step]
      split
      · rw [List.getElem?_append_left hj, h]
      · exact h
    | set i s =>
      have : i ≠ j := by
        rintro rfl
        exact hn s List.mem_cons_self
      simp [step, this, h]

end S2A.TlsOptions
