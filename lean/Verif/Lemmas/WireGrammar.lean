import Verif.Lemmas.WireAppend
import Verif.Spec.Wire
/-
The decoder reads exactly the grammar of the wire format.
-/
namespace S2A.Wire
open Spec (groups IsVarint WireField WireMessage)

theorem readVarint_sound {k : Nat} {bs r : Bytes} {n : Nat} (h : readVarint k bs = some (n, r)) :
    ∃ init last, bs = init ++ [last] ++ r ∧ (∀ b ∈ init, 128 ≤ b.toNat) ∧ last.toNat < 128 ∧
      init.length + 1 ≤ k ∧ groups (init ++ [last]) = n := by
  induction k generalizing bs n r with
  | zero => cases h
  | succ k ih =>
    cases bs with
    | nil => cases h
    | cons b bs =>
      simp only [readVarint] at h
      split at h
      · next hb =>
        cases h
        have hb' : b.toNat < 128 := hb
        refine ⟨[], b, rfl, by simp, hb', by simp, ?_⟩
        simp [groups]; omega
      · next hb =>
        have hb' : ¬ b.toNat < 128 := hb
        cases hr : readVarint k bs with
        | none => rw [hr] at h; cases h
        | some x =>
          obtain ⟨m, r'⟩ := x
          rw [hr] at h
          cases h
          obtain ⟨init, last, h1, h2, h3, h4, h5⟩ := ih hr
          refine ⟨b :: init, last, by rw [h1]; rfl, ?_, h3, by simp; omega, ?_⟩
          · intro c hc
            rcases List.mem_cons.mp hc with rfl | hc
            · omega
            · exact h2 c hc
          · have := b.toNat_lt
            simp only [List.cons_append, groups, h5]
            omega

theorem readVarint_complete {k : Nat} {init : Bytes} {last : UInt8} (r : Bytes)
    (h2 : ∀ b ∈ init, 128 ≤ b.toNat) (h3 : last.toNat < 128) (h4 : init.length + 1 ≤ k) :
    readVarint k (init ++ [last] ++ r) = some (groups (init ++ [last]), r) := by
  induction init generalizing k with
  | nil =>
    obtain ⟨k, rfl⟩ : ∃ m, k = m + 1 := ⟨k - 1, by simp at h4; omega⟩
    have hl : last < 128 := h3
    simp only [List.nil_append, List.singleton_append, readVarint, if_pos hl, groups]
    congr 2; omega
  | cons b init ih =>
    obtain ⟨k, rfl⟩ : ∃ m, k = m + 1 := ⟨k - 1, by simp at h4; omega⟩
    have hb := h2 b (by simp)
    have hb' : ¬ b < 128 := fun h => by
      have : b.toNat < 128 := h
      omega
    have := ih (k := k) (fun c hc => h2 c (by simp [hc])) (by simp at h4; omega)
    simp only [List.cons_append, readVarint, if_neg hb']
    rw [this]
    have := b.toNat_lt
    have e : b.toNat - 128 = b.toNat % 128 := by omega
    simp only [groups, e]

theorem readVarint_iff {bs r : Bytes} {n : Nat} :
    readVarint 10 bs = some (n, r) ↔ ∃ v, bs = v ++ r ∧ IsVarint v ∧ groups v = n := by
  constructor
  · intro h
    obtain ⟨init, last, h1, h2, h3, h4, h5⟩ := readVarint_sound h
    exact ⟨init ++ [last], h1, ⟨init, last, rfl, h2, h3, by simpa using h4⟩, h5⟩
  · rintro ⟨v, rfl, ⟨init, last, rfl, h2, h3, h4⟩, rfl⟩
    exact readVarint_complete r h2 h3 (by simpa using h4)

theorem readBytes_iff {n : Nat} {bs b r : Bytes} :
    readBytes n bs = some (b, r) ↔ bs = b ++ r ∧ b.length = n := by
  unfold readBytes
  constructor
  · intro h
    split at h
    · next hn =>
      cases h
      exact ⟨(List.take_append_drop n bs).symm, by simp; omega⟩
    · cases h
  · rintro ⟨rfl, rfl⟩
    rw [if_pos (by simp)]
    simp

theorem readField_complete {a : Bytes} {f : Field} (h : WireField a f) (r : Bytes) :
    readField (a ++ r) = some (f, r) := by
  unfold readField
  cases h with
  | @varint t v i ht hg hi hv =>
    rw [List.append_assoc, readVarint_iff.mpr ⟨t, rfl, ht, rfl⟩]
    simp only [Option.bind_eq_bind, Option.bind_some, hg]
    rw [if_neg (by omega), show 8 * i % 8 = 0 by omega]
    simp only [readVarint_iff.mpr ⟨v, rfl, hv, rfl⟩, Option.bind_some]
    rw [show 8 * i / 8 = i by omega]
  | @fixed64 t b i ht hg hi hb =>
    rw [List.append_assoc, readVarint_iff.mpr ⟨t, rfl, ht, rfl⟩]
    simp only [Option.bind_eq_bind, Option.bind_some, hg]
    rw [if_neg (by omega), show (8 * i + 1) % 8 = 1 by omega]
    simp only [readBytes_iff.mpr ⟨rfl, hb⟩, Option.bind_some]
    rw [show (8 * i + 1) / 8 = i by omega]
  | @len t n b i ht hg hi hn hb =>
    rw [List.append_assoc, List.append_assoc, readVarint_iff.mpr ⟨t, rfl, ht, rfl⟩]
    simp only [Option.bind_eq_bind, Option.bind_some, hg]
    rw [if_neg (by omega), show (8 * i + 2) % 8 = 2 by omega]
    simp only [readVarint_iff.mpr ⟨n, rfl, hn, rfl⟩, Option.bind_some, hb,
      readBytes_iff.mpr ⟨rfl, rfl⟩]
    rw [show (8 * i + 2) / 8 = i by omega]
  | @fixed32 t b i ht hg hi hb =>
    rw [List.append_assoc, readVarint_iff.mpr ⟨t, rfl, ht, rfl⟩]
    simp only [Option.bind_eq_bind, Option.bind_some, hg]
    rw [if_neg (by omega), show (8 * i + 5) % 8 = 5 by omega]
    simp only [readBytes_iff.mpr ⟨rfl, hb⟩, Option.bind_some]
    rw [show (8 * i + 5) / 8 = i by omega]

theorem readField_sound {bs r : Bytes} {f : Field} (h : readField bs = some (f, r)) :
    ∃ a, bs = a ++ r ∧ WireField a f := by
  unfold readField at h
  cases h1 : readVarint 10 bs with
  | none => rw [h1] at h; cases h
  | some x =>
    obtain ⟨tag, b1⟩ := x
    rw [h1] at h
    obtain ⟨t, rfl, ht, rfl⟩ := readVarint_iff.mp h1
    simp only [Option.bind_eq_bind, Option.bind_some] at h
    split at h
    · cases h
    next hi =>
    have hdiv := Nat.div_add_mod (groups t) 8
    generalize hw : groups t % 8 = w at h hdiv
    split at h
    · cases h2 : readVarint 10 b1 with
      | none => rw [h2] at h; cases h
      | some x =>
        obtain ⟨n, b2⟩ := x
        rw [h2] at h
        cases h
        obtain ⟨v, rfl, hv, rfl⟩ := readVarint_iff.mp h2
        exact ⟨t ++ v, by simp, .varint ht (by omega) hi hv⟩
    · cases h2 : readBytes 8 b1 with
      | none => rw [h2] at h; cases h
      | some x =>
        obtain ⟨b, b2⟩ := x
        rw [h2] at h
        cases h
        obtain ⟨rfl, hb⟩ := readBytes_iff.mp h2
        exact ⟨t ++ b, by simp, .fixed64 ht (by omega) hi hb⟩
    · cases h2 : readVarint 10 b1 with
      | none => rw [h2] at h; cases h
      | some x =>
        obtain ⟨n, b2⟩ := x
        rw [h2] at h
        simp only [Option.bind_some] at h
        obtain ⟨v, rfl, hv, rfl⟩ := readVarint_iff.mp h2
        cases h3 : readBytes (groups v) b2 with
        | none => rw [h3] at h; cases h
        | some x =>
          obtain ⟨b, b3⟩ := x
          rw [h3] at h
          cases h
          obtain ⟨rfl, hb⟩ := readBytes_iff.mp h3
          exact ⟨t ++ v ++ b, by simp, .len ht (by omega) hi hv hb.symm⟩
    · cases h2 : readBytes 4 b1 with
      | none => rw [h2] at h; cases h
      | some x =>
        obtain ⟨b, b2⟩ := x
        rw [h2] at h
        cases h
        obtain ⟨rfl, hb⟩ := readBytes_iff.mp h2
        exact ⟨t ++ b, by simp, .fixed32 ht (by omega) hi hb⟩
    · cases h

theorem IsVarint.ne_nil {v : Bytes} (h : IsVarint v) : v ≠ [] := by
  obtain ⟨init, last, rfl, _⟩ := h
  simp

theorem WireField.ne_nil {a : Bytes} {f : Field} (h : WireField a f) : a ≠ [] := by
  cases h with
  | varint ht _ _ _ => simp [IsVarint.ne_nil ht]
  | fixed64 ht _ _ _ => simp [IsVarint.ne_nil ht]
  | len ht _ _ _ _ => simp [IsVarint.ne_nil ht]
  | fixed32 ht _ _ _ => simp [IsVarint.ne_nil ht]

theorem readFields_iff {fuel : Nat} {bs : Bytes} {fs : List Field} (hf : bs.length ≤ fuel) :
    readFields fuel bs = some fs ↔ WireMessage bs fs := by
  constructor
  · intro h
    clear hf
    induction fuel generalizing bs fs with
    | zero =>
      cases bs with
      | nil => cases h; exact .nil
      | cons b bs => cases h
    | succ k ih =>
      cases bs with
      | nil => cases h; exact .nil
      | cons b bs =>
        simp only [readFields] at h
        cases hr : readField (b :: bs) with
        | none => rw [hr] at h; cases h
        | some x =>
          obtain ⟨f, r⟩ := x
          rw [hr] at h
          simp only [Option.map_eq_some_iff] at h
          obtain ⟨l, h1, rfl⟩ := h
          obtain ⟨a, ha, hw⟩ := readField_sound hr
          rw [ha]
          exact .cons hw (ih h1)
  · intro h
    induction h generalizing fuel with
    | nil => cases fuel <;> rfl
    | @cons a r f fs ha _ ih =>
      have hne := WireField.ne_nil ha
      obtain ⟨b, a', rfl⟩ := List.exists_cons_of_ne_nil hne
      obtain ⟨k, rfl⟩ : ∃ m, fuel = m + 1 := ⟨fuel - 1, by simp at hf; omega⟩
      rw [List.cons_append]
      simp only [readFields]
      rw [← List.cons_append, readField_complete ha]
      simp only [Option.map_eq_some_iff]
      exact ⟨fs, ih (by simp at hf; omega), rfl⟩

/-- The decoder accepts exactly the messages of the grammar, with their fields. -/
theorem decode_iff {bs : Bytes} {fs : List Field} : decode bs = some fs ↔ WireMessage bs fs :=
  readFields_iff (Nat.le_refl _)

/-- A message has one reading. -/
theorem WireMessage.unique {bs : Bytes} {fs gs : List Field} (h : WireMessage bs fs)
    (h' : WireMessage bs gs) : fs = gs := by
  have := (decode_iff.mpr h).symm.trans (decode_iff.mpr h')
  exact Option.some.inj this

/-- What is left of a message that has lost its end has some of its first fields, not all. -/
theorem WireMessage.cut {p t : Bytes} {fs gs : List Field} (h : WireMessage p gs)
    (h' : WireMessage (p ++ t) fs) (ht : t ≠ []) : ∃ f more, fs = gs ++ f :: more := by
  induction h generalizing fs with
  | nil =>
    generalize he : [] ++ t = q at h'
    cases h' with
    | nil => exact absurd he ht
    | cons _ _ => exact ⟨_, _, rfl⟩
  | @cons a r f gs ha _ ih =>
    generalize he : a ++ r ++ t = q at h'
    cases h' with
    | nil => simp [WireField.ne_nil ha] at he
    | @cons a' r' f' fs ha' hr' =>
      rw [List.append_assoc] at he
      have h1 := readField_complete ha (r ++ t)
      rw [he, readField_complete ha' r'] at h1
      simp only [Option.some.injEq, Prod.mk.injEq] at h1
      obtain ⟨rfl, rfl⟩ := h1
      obtain ⟨g, more, rfl⟩ := ih hr'
      exact ⟨g, more, rfl⟩

end S2A.Wire
