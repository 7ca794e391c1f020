import Verif.Spec.HashTable
/-
Lemmas for C106.
-/
namespace S2A

theorem Identity.equals_iff (a b : Identity) : a.equals b = true ↔ a = b := by
  cases a; cases b
  simp [Identity.equals]

namespace HashTable

/-- Every stored hash is the one of its key: the invariant of all tables. -/
def Sound {V : Type} (H : Combine) (t : Table V) : Prop := ∀ e ∈ t, e.1 = hash H e.2.1

theorem hit_iff {V : Type} {H : Combine} {k : Identity} {e : Nat × Identity × V}
    (h : e.1 = hash H e.2.1) : hit H k e = true ↔ e.2.1 = k := by
  simp only [hit, Bool.and_eq_true, beq_iff_eq, Identity.equals_iff]
  constructor
  · exact fun h => h.2
  · intro he
    exact ⟨by rw [h, he], he⟩

theorem contains_iff {V : Type} {H : Combine} {t : Table V} (h : Sound H t) (k : Identity) :
    contains H t k = true ↔ k ∈ keys t := by
  simp only [contains, List.any_eq_true, keys, List.mem_map]
  constructor
  · rintro ⟨e, he, hh⟩
    exact ⟨e, he, (hit_iff (h e he)).1 hh⟩
  · rintro ⟨e, he, hh⟩
    exact ⟨e, he, (hit_iff (h e he)).2 hh⟩

theorem insert_sound {V : Type} {H : Combine} {t : Table V} (h : Sound H t) (k : Identity) (v : V) :
    Sound H (insert H t k v) := by
  unfold insert
  split
  · exact h
  · intro e he
    rcases List.mem_append.1 he with he | he
    · exact h e he
    · rw [List.mem_singleton] at he
      subst he
      rfl

theorem insert_keys {V : Type} {H : Combine} {t : Table V} (h : Sound H t) (k : Identity) (v : V) :
    keys (insert H t k v) = insertId (keys t) k := by
  unfold insert insertId
  by_cases hk : contains H t k = true
  · rw [if_pos hk, if_pos ((contains_iff h k).1 hk)]
  · rw [if_neg hk, if_neg (fun hm => hk ((contains_iff h k).2 hm))]
    simp [keys, Identity.copy]

theorem assign_sound {V : Type} {H : Combine} {t : Table V} (h : Sound H t) (k : Identity) (v : V) :
    Sound H (assign H t k v) := by
  unfold assign
  split
  · intro e he
    rw [List.mem_map] at he
    obtain ⟨e', he', rfl⟩ := he
    split
    · exact h e' he'
    · exact h e' he'
  · intro e he
    rcases List.mem_append.1 he with he | he
    · exact h e he
    · rw [List.mem_singleton] at he
      subst he
      rfl

theorem contains_cacheHas {H : Combine} {t : Table Bytes} (h : Sound H t) (k : Identity) :
    contains H t k = Proxy.cacheHas (entries t) k := by
  rw [Bool.eq_iff_iff, contains_iff h]
  simp only [Proxy.cacheHas, entries, keys, List.any_map, List.any_eq_true, List.mem_map,
    Function.comp, beq_iff_eq]

theorem assign_entries {H : Combine} {t : Table Bytes} (h : Sound H t) (k : Identity) (v : Bytes) :
    entries (assign H t k v) = Proxy.cacheSet (entries t) k v := by
  unfold assign Proxy.cacheSet
  rw [contains_cacheHas h]
  unfold Proxy.cacheHas
  split
  · simp only [entries, List.map_map]
    apply List.map_congr_left
    intro e he
    simp only [Function.comp]
    by_cases hh : hit H k e = true
    · rw [if_pos hh, if_pos ((hit_iff (h e he)).1 hh), (hit_iff (h e he)).1 hh]
    · rw [if_neg hh, if_neg (fun hm => hh ((hit_iff (h e he)).2 hm))]
  · simp [entries, Identity.copy]

theorem insert_mem {V : Type} {H : Combine} {t : Table V} (h : Sound H t) (k i : Identity) (v : V) :
    i ∈ keys (insert H t k v) ↔ i ∈ keys t ∨ i = k := by
  rw [insert_keys h]
  unfold insertId
  split
  · rename_i hk
    constructor
    · exact .inl
    · rintro (h | rfl)
      · exact h
      · exact hk
  · simp

theorem insert_nodup {V : Type} {H : Combine} {t : Table V} (h : Sound H t)
    (hn : (keys t).Nodup) (k : Identity) (v : V) : (keys (insert H t k v)).Nodup := by
  rw [insert_keys h]
  unfold insertId
  split
  · exact hn
  · rename_i hk
    rw [List.nodup_append]
    refine ⟨hn, by simp, ?_⟩
    intro a ha b hb
    rw [List.mem_singleton] at hb
    subst hb
    rintro rfl
    exact hk ha

/-- What holds of a table of local identities after any setters. -/
theorem local_run (H : Combine) (ss : List TlsOptions.Setter) :
    ∀ (t : Table Unit) (o : TlsOptions), Sound H t → (keys t).Nodup → keys t = o.locals →
      Sound H (ss.foldl (setLocal H) t) ∧ (keys (ss.foldl (setLocal H) t)).Nodup ∧
      keys (ss.foldl (setLocal H) t) = (ss.foldl TlsOptions.apply o).locals ∧
      ∀ i, i ∈ keys (ss.foldl (setLocal H) t) ↔ i ∈ keys t ∨ ∃ s ∈ ss, addsLocal s = some i := by
  induction ss with
  | nil => intro t o h1 h2 h3; exact ⟨h1, h2, h3, by simp⟩
  | cons s ss ih =>
    intro t o h1 h2 h3
    have key : Sound H (setLocal H t s) ∧ (keys (setLocal H t s)).Nodup ∧
        keys (setLocal H t s) = (o.apply s).locals ∧
        ∀ i, i ∈ keys (setLocal H t s) ↔ i ∈ keys t ∨ addsLocal s = some i := by
      cases s <;> simp only [setLocal, TlsOptions.apply, addsLocal, reduceCtorEq, or_false,
        implies_true, and_true] <;> first
        | exact ⟨h1, h2, h3⟩
        | (refine ⟨insert_sound h1 _ _, insert_nodup h1 h2 _ _, by rw [insert_keys h1, h3], ?_⟩
           intro i
           rw [insert_mem h1, Option.some.injEq, eq_comm (a := i)]
           rfl)
    obtain ⟨k1, k2, k3, k4⟩ := key
    obtain ⟨q1, q2, q3, q4⟩ := ih _ _ k1 k2 k3
    refine ⟨q1, q2, q3, fun i => ?_⟩
    rw [List.foldl_cons, q4, k4]
    simp [or_assoc]

theorem target_run (H : Combine) (ss : List TlsOptions.Setter) :
    ∀ (t : Table Unit) (o : TlsOptions), Sound H t → (keys t).Nodup → keys t = o.targets →
      Sound H (ss.foldl (setTarget H) t) ∧ (keys (ss.foldl (setTarget H) t)).Nodup ∧
      keys (ss.foldl (setTarget H) t) = (ss.foldl TlsOptions.apply o).targets ∧
      ∀ i, i ∈ keys (ss.foldl (setTarget H) t) ↔ i ∈ keys t ∨ ∃ s ∈ ss, addsTarget s = some i := by
  induction ss with
  | nil => intro t o h1 h2 h3; exact ⟨h1, h2, h3, by simp⟩
  | cons s ss ih =>
    intro t o h1 h2 h3
    have key : Sound H (setTarget H t s) ∧ (keys (setTarget H t s)).Nodup ∧
        keys (setTarget H t s) = (o.apply s).targets ∧
        ∀ i, i ∈ keys (setTarget H t s) ↔ i ∈ keys t ∨ addsTarget s = some i := by
      cases s <;> simp only [setTarget, TlsOptions.apply, addsTarget, reduceCtorEq, or_false,
        implies_true, and_true] <;> first
        | exact ⟨h1, h2, h3⟩
        | (refine ⟨insert_sound h1 _ _, insert_nodup h1 h2 _ _, by rw [insert_keys h1, h3], ?_⟩
           intro i
           rw [insert_mem h1, Option.some.injEq, eq_comm (a := i)]
           rfl)
    obtain ⟨k1, k2, k3, k4⟩ := key
    obtain ⟨q1, q2, q3, q4⟩ := ih _ _ k1 k2 k3
    refine ⟨q1, q2, q3, fun i => ?_⟩
    rw [List.foldl_cons, q4, k4]
    simp [or_assoc]

theorem cacheSet_keys (c : List (Identity × Bytes)) (k : Identity) (v : Bytes) :
    (Proxy.cacheSet c k v).map (·.1) = insertId (c.map (·.1)) k := by
  unfold Proxy.cacheSet insertId
  by_cases h : c.any (·.1 == k) = true
  · rw [if_pos h, if_pos (by
      obtain ⟨e, he, hk⟩ := List.any_eq_true.1 h
      exact List.mem_map.2 ⟨e, he, by simpa using hk⟩)]
    rw [List.map_map]
    apply List.map_congr_left
    intro e _
    simp only [Function.comp]
    split
    · rename_i hk; exact hk.symm
    · rfl
  · rw [if_neg h, if_neg (by
      intro hm
      obtain ⟨e, he, hk⟩ := List.mem_map.1 hm
      exact h (List.any_eq_true.2 ⟨e, he, by simpa using hk⟩))]
    simp

theorem cacheSet_mem {c : List (Identity × Bytes)} (k : Identity) (v : Bytes) (i : Identity)
    (w : Bytes) : (i, w) ∈ Proxy.cacheSet c k v ↔ if i = k then w = v else (i, w) ∈ c := by
  unfold Proxy.cacheSet
  by_cases h : c.any (·.1 == k) = true
  · rw [if_pos h]
    obtain ⟨⟨i0, w0⟩, he0, hk0⟩ := List.any_eq_true.1 h
    have hk0 : i0 = k := by simpa using hk0
    subst hk0
    rw [List.mem_map]
    split
    · rename_i hik
      subst hik
      constructor
      · rintro ⟨e, _, hh⟩
        split at hh
        · exact (Prod.mk.inj hh).2.symm
        · rename_i hne
          exact absurd (by rw [hh]) hne
      · rintro rfl
        exact ⟨_, he0, by rw [if_pos rfl]⟩
    · rename_i hik
      constructor
      · rintro ⟨e, he, hh⟩
        split at hh
        · exact absurd (Prod.mk.inj hh).1.symm hik
        · rw [← hh]; exact he
      · intro hm
        exact ⟨_, hm, by rw [if_neg hik]⟩
  · rw [if_neg h]
    split
    · rename_i hik
      subst hik
      rw [List.mem_append, List.mem_singleton]
      constructor
      · rintro (hm | hm)
        · exact absurd (List.any_eq_true.2 ⟨_, hm, by simp⟩) h
        · exact (Prod.mk.inj hm).2
      · rintro rfl
        exact .inr rfl
    · rename_i hik
      rw [List.mem_append, List.mem_singleton]
      constructor
      · rintro (hm | hm)
        · exact hm
        · exact absurd (Prod.mk.inj hm).1 hik
      · exact .inl

theorem cache_run (H : Combine) (ops : List CacheOp) :
    ∀ (t : Table Bytes) (m : Identity → Option Bytes), Sound H t →
      ((entries t).map (·.1)).Nodup → (∀ i v, (i, v) ∈ entries t ↔ m i = some v) →
      Sound H (ops.foldl (cacheStep H) t) ∧
      ((entries (ops.foldl (cacheStep H) t)).map (·.1)).Nodup ∧
      (∀ i v, (i, v) ∈ entries (ops.foldl (cacheStep H) t) ↔
        ops.foldl CacheOp.onMap m i = some v) := by
  induction ops with
  | nil => intro t m h1 h2 h3; exact ⟨h1, h2, h3⟩
  | cons op ops ih =>
    intro t m h1 h2 h3
    apply ih
    · cases op with
      | assign k v => exact assign_sound h1 k v
      | clear => intro e he; cases he
    · cases op with
      | assign k v =>
        rw [cacheStep, assign_entries h1, cacheSet_keys]
        unfold insertId
        split
        · exact h2
        · rename_i hk
          rw [List.nodup_append]
          refine ⟨h2, by simp, ?_⟩
          intro a ha b hb
          rw [List.mem_singleton] at hb
          subst hb
          rintro rfl
          exact hk ha
      | clear => exact List.nodup_nil
    · intro i w
      cases op with
      | assign k v =>
        rw [cacheStep, assign_entries h1, cacheSet_mem, CacheOp.onMap]
        show _ ↔ (if i = k then some v else m i) = some w
        split
        · rw [Option.some.injEq, eq_comm]
        · exact h3 i w
      | clear => simp [cacheStep, entries, CacheOp.onMap]

end HashTable
end S2A
