import Verif.Lemmas.Proto
namespace S2A.Wire

theorem readVarint_append {k : Nat} {bs r : Bytes} {n : Nat} (t : Bytes)
    (h : readVarint k bs = some (n, r)) : readVarint k (bs ++ t) = some (n, r ++ t) := by
  induction k generalizing bs n r with
  | zero => cases h
  | succ k ih =>
    cases bs with
    | nil => cases h
    | cons b bs =>
      simp only [readVarint, List.cons_append] at h ⊢
      split at h
      · next hb => rw [if_pos hb]; cases h; rfl
      · next hb =>
        rw [if_neg hb]
        cases hr : readVarint k bs with
        | none => rw [hr] at h; cases h
        | some x =>
          obtain ⟨m, r'⟩ := x
          rw [hr] at h
          cases h
          rw [ih hr]

theorem readVarint_shorter {k : Nat} {bs r : Bytes} {n : Nat}
    (h : readVarint k bs = some (n, r)) : r.length < bs.length := by
  induction k generalizing bs n r with
  | zero => cases h
  | succ k ih =>
    cases bs with
    | nil => cases h
    | cons b bs =>
      simp only [readVarint] at h
      split at h
      · cases h; simp
      · cases hr : readVarint k bs with
        | none => rw [hr] at h; cases h
        | some x =>
          obtain ⟨m, r'⟩ := x
          rw [hr] at h
          cases h
          have := ih hr
          simp; omega

theorem readBytes_append' {n : Nat} {bs b r : Bytes} (t : Bytes)
    (h : readBytes n bs = some (b, r)) : readBytes n (bs ++ t) = some (b, r ++ t) := by
  unfold readBytes at h ⊢
  split at h
  · next hn =>
    cases h
    rw [if_pos (by simp; omega), List.take_append_of_le_length hn, List.drop_append_of_le_length hn]
  · cases h

theorem readBytes_shorter {n : Nat} {bs b r : Bytes} (h : readBytes n bs = some (b, r)) :
    r.length ≤ bs.length := by
  unfold readBytes at h
  split at h
  · cases h; simp
  · cases h

theorem readField_append {bs r : Bytes} {f : Field} (t : Bytes)
    (h : readField bs = some (f, r)) :
    readField (bs ++ t) = some (f, r ++ t) ∧ r.length < bs.length := by
  unfold readField at h ⊢
  cases h1 : readVarint 10 bs with
  | none => rw [h1] at h; cases h
  | some x =>
    obtain ⟨tag, b1⟩ := x
    rw [readVarint_append t h1]
    have hs := readVarint_shorter h1
    rw [h1] at h
    simp only [Option.bind_eq_bind, Option.bind_some] at h ⊢
    split at h
    · cases h
    next htag =>
    rw [if_neg htag]
    generalize tag % 8 = w at h
    split at h
    · cases h2 : readVarint 10 b1 with
      | none => rw [h2] at h; cases h
      | some x =>
        obtain ⟨n, b2⟩ := x
        rw [h2] at h
        cases h
        have := readVarint_shorter h2
        simp only [readVarint_append t h2, Option.bind_some]
        exact ⟨trivial, by omega⟩
    · cases h2 : readBytes 8 b1 with
      | none => rw [h2] at h; cases h
      | some x =>
        obtain ⟨n, b2⟩ := x
        rw [h2] at h
        cases h
        have := readBytes_shorter h2
        simp only [readBytes_append' t h2, Option.bind_some]
        exact ⟨trivial, by omega⟩
    · cases h2 : readVarint 10 b1 with
      | none => rw [h2] at h; cases h
      | some x =>
        obtain ⟨n, b2⟩ := x
        rw [h2] at h
        simp only [Option.bind_some] at h
        have := readVarint_shorter h2
        simp only [readVarint_append t h2, Option.bind_some]
        cases h3 : readBytes n b2 with
        | none => rw [h3] at h; cases h
        | some x =>
          obtain ⟨b, b3⟩ := x
          rw [h3] at h
          cases h
          have := readBytes_shorter h3
          simp only [readBytes_append' t h3, Option.bind_some]
          exact ⟨trivial, by omega⟩
    · cases h2 : readBytes 4 b1 with
      | none => rw [h2] at h; cases h
      | some x =>
        obtain ⟨n, b2⟩ := x
        rw [h2] at h
        cases h
        have := readBytes_shorter h2
        simp only [readBytes_append' t h2, Option.bind_some]
        exact ⟨trivial, by omega⟩
    · cases h

theorem readFields_append {fuel fuel' : Nat} {bs t : Bytes} {fs gs : List Field}
    (h : readFields fuel bs = some fs) (ht : readFields fuel' t = some gs) :
    ∀ n, bs.length + fuel' ≤ n → readFields n (bs ++ t) = some (fs ++ gs) := by
  have mono : ∀ {k m : Nat} {t : Bytes} {gs : List Field}, readFields k t = some gs → k ≤ m →
      readFields m t = some gs := by
    intro k
    induction k with
    | zero =>
      intro m t gs h hm
      cases t with
      | nil => cases m <;> simpa [readFields] using h
      | cons b t => cases h
    | succ k ih =>
      intro m t gs h hm
      cases t with
      | nil => cases m <;> simpa [readFields] using h
      | cons b t =>
        obtain ⟨m, rfl⟩ : ∃ m', m = m' + 1 := ⟨m - 1, by omega⟩
        simp only [readFields] at h ⊢
        cases hr : readField (b :: t) with
        | none => rw [hr] at h; cases h
        | some x =>
          obtain ⟨f, r⟩ := x
          rw [hr] at h
          simp only [Option.map_eq_some_iff] at h ⊢
          obtain ⟨l, h1, h2⟩ := h
          exact ⟨l, ih h1 (by omega), h2⟩
  induction fuel generalizing bs fs with
  | zero =>
    intro n hn
    cases bs with
    | nil => cases h; exact mono ht (by simpa using hn)
    | cons b bs => cases h
  | succ fuel ih =>
    intro n hn
    cases bs with
    | nil => cases h; exact mono ht (by simpa using hn)
    | cons b bs =>
      obtain ⟨n, rfl⟩ : ∃ m', n = m' + 1 := ⟨n - 1, by simp at hn; omega⟩
      simp only [readFields] at h
      rw [List.cons_append]
      simp only [readFields]
      rw [← List.cons_append]
      cases hr : readField (b :: bs) with
      | none => rw [hr] at h; cases h
      | some x =>
        obtain ⟨f, r⟩ := x
        rw [hr] at h
        obtain ⟨h3, h4⟩ := readField_append t hr
        rw [h3]
        simp only [Option.map_eq_some_iff] at h ⊢
        obtain ⟨l, h1, rfl⟩ := h
        refine ⟨l ++ gs, ih h1 n ?_, rfl⟩
        simp at h4 hn
        omega

/-- A field written after a message is read after its fields. -/
theorem decode_append {bs : Bytes} {fs : List Field} {f : Field} (h : decode bs = some fs)
    (hf : FieldOk f) : decode (bs ++ encodeField f) = some (fs ++ [f]) := by
  have h1 := decode_encode [f] (fun g hg => by rw [List.mem_singleton.1 hg]; exact hf)
  have he : encode [f] = encodeField f := by simp [encode]
  rw [he] at h1
  exact readFields_append h h1 _ (by simp)

end S2A.Wire
