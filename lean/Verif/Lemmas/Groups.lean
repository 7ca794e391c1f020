import Verif.Spec.Groups
import Verif.Lemmas.WireGrammar
namespace S2A.Upb
open Wire Proto
open S2A.Spec (groups IsVarint WireField WireMessage)
open S2A.Spec.Upb (IsTag IsField Message IsGroup plain)

theorem readNum_iff {bs r : Bytes} {n : Nat} :
    readNum bs = some (n, r) ↔ ∃ v, bs = v ++ r ∧ IsVarint v ∧ groups v % 2 ^ 64 = n := by
  unfold readNum
  constructor
  · intro h
    cases h1 : readVarint 10 bs with
    | none => rw [h1] at h; cases h
    | some x =>
      obtain ⟨m, r'⟩ := x
      rw [h1] at h
      simp only [Option.bind_eq_bind, Option.bind_some, Option.some.injEq, Prod.mk.injEq] at h
      obtain ⟨h2, rfl⟩ := h
      obtain ⟨v, rfl, hv, rfl⟩ := readVarint_iff.mp h1
      exact ⟨v, rfl, hv, h2⟩
  · rintro ⟨v, rfl, hv, rfl⟩
    rw [readVarint_iff.mpr ⟨v, rfl, hv, rfl⟩]
    rfl

theorem readNum32_iff {bs r : Bytes} {n : Nat} :
    readNum32 bs = some (n, r) ↔ ∃ t, bs = t ++ r ∧ IsTag t n := by
  unfold readNum32
  constructor
  · intro h
    cases h1 : readNum bs with
    | none => rw [h1] at h; cases h
    | some x =>
      obtain ⟨m, r'⟩ := x
      rw [h1] at h
      simp only [Option.bind_eq_bind, Option.bind_some] at h
      split at h
      · next hm =>
        cases h
        obtain ⟨v, rfl, hv, rfl⟩ := readNum_iff.mp h1
        exact ⟨v, rfl, hv, rfl, hm⟩
      · cases h
  · rintro ⟨t, rfl, ht, rfl, hn⟩
    rw [readNum_iff.mpr ⟨t, rfl, ht, rfl⟩]
    simp only [Option.bind_eq_bind, Option.bind_some, if_pos hn]

/-- A value and the bytes it is written with, after a tag of wire type `w`. -/
inductive IsValue : Nat → Bytes → Val → Prop
  | varint {v : Bytes} : IsVarint v → IsValue 0 v (.varint (groups v % 2 ^ 64))
  | fixed64 {b : Bytes} : b.length = 8 → IsValue 1 b (.fixed64 b)
  | len {n b : Bytes} : IsVarint n → groups n % 2 ^ 64 = b.length → b.length < 2 ^ 31 - 1 →
      IsValue 2 (n ++ b) (.len b)
  | fixed32 {b : Bytes} : b.length = 4 → IsValue 5 b (.fixed32 b)

theorem readValue_sound {w : Nat} {bs r : Bytes} {v : Val} (h : readValue w bs = some (v, r)) :
    ∃ a, bs = a ++ r ∧ IsValue w a v := by
  unfold readValue at h
  split at h
  · cases h1 : readNum bs with
    | none => rw [h1] at h; cases h
    | some x =>
      obtain ⟨n, b1⟩ := x
      rw [h1] at h
      cases h
      obtain ⟨v, rfl, hv, rfl⟩ := readNum_iff.mp h1
      exact ⟨v, rfl, .varint hv⟩
  · cases h1 : readBytes 8 bs with
    | none => rw [h1] at h; cases h
    | some x =>
      obtain ⟨b, b1⟩ := x
      rw [h1] at h
      cases h
      obtain ⟨rfl, hb⟩ := readBytes_iff.mp h1
      exact ⟨b, rfl, .fixed64 hb⟩
  · cases h1 : readNum32 bs with
    | none => rw [h1] at h; cases h
    | some x =>
      obtain ⟨n, b1⟩ := x
      rw [h1] at h
      simp only [Option.bind_eq_bind, Option.bind_some] at h
      split at h
      · next hn =>
        cases h2 : readBytes n b1 with
        | none => rw [h2] at h; cases h
        | some x =>
          obtain ⟨b, b2⟩ := x
          rw [h2] at h
          cases h
          obtain ⟨t, rfl, ht, he, _⟩ := readNum32_iff.mp h1
          obtain ⟨rfl, hb⟩ := readBytes_iff.mp h2
          exact ⟨t ++ b, by simp, .len ht (he.trans hb.symm) (by omega)⟩
      · cases h
  · cases h1 : readBytes 4 bs with
    | none => rw [h1] at h; cases h
    | some x =>
      obtain ⟨b, b1⟩ := x
      rw [h1] at h
      cases h
      obtain ⟨rfl, hb⟩ := readBytes_iff.mp h1
      exact ⟨b, rfl, .fixed32 hb⟩
  · cases h

theorem readValue_complete {w : Nat} {a : Bytes} {v : Val} (h : IsValue w a v) (r : Bytes) :
    readValue w (a ++ r) = some (v, r) := by
  cases h with
  | varint hv =>
    simp only [readValue, readNum_iff.mpr ⟨_, rfl, hv, rfl⟩]; rfl
  | fixed64 hb => simp only [readValue, readBytes_iff.mpr ⟨rfl, hb⟩]; rfl
  | @len n b hn hg hb =>
    have h1 : readNum32 (n ++ b ++ r) = some (b.length, b ++ r) :=
      readNum32_iff.mpr ⟨n, by simp, hn, hg, by omega⟩
    simp only [readValue, h1, Option.bind_eq_bind, Option.bind_some, if_pos hb,
      readBytes_iff.mpr ⟨rfl, rfl⟩]
  | fixed32 hb => simp only [readValue, readBytes_iff.mpr ⟨rfl, hb⟩]; rfl

theorem isField_iff {a : Bytes} {i : Nat} {v : Val} :
    IsField a (i, v) ↔ ∃ t w b, a = t ++ b ∧ i ≠ 0 ∧ IsTag t (8 * i + w) ∧ IsValue w b v := by
  constructor
  · intro h
    cases h with
    | varint ht hi hv => exact ⟨_, 0, _, rfl, hi, ht, .varint hv⟩
    | fixed64 ht hi hb => exact ⟨_, 1, _, rfl, hi, ht, .fixed64 hb⟩
    | len ht hi hn hg hb => exact ⟨_, 2, _, List.append_assoc .., hi, ht, .len hn hg hb⟩
    | fixed32 ht hi hb => exact ⟨_, 5, _, rfl, hi, ht, .fixed32 hb⟩
  · rintro ⟨t, w, b, rfl, hi, ht, hv⟩
    cases hv with
    | varint hv => exact .varint ht hi hv
    | fixed64 hb => exact .fixed64 ht hi hb
    | len hn hg hb => rw [← List.append_assoc]; exact .len ht hi hn hg hb
    | fixed32 hb => exact .fixed32 ht hi hb

theorem IsValue.small {w : Nat} {b : Bytes} {v : Val} (h : IsValue w b v) :
    w < 8 ∧ w ≠ 3 ∧ w ≠ 4 := by
  cases h <;> omega

theorem tag_ne_nil {t : Bytes} {n : Nat} (h : IsTag t n) : t ≠ [] := Wire.IsVarint.ne_nil h.1

theorem tag_pos {t : Bytes} {n : Nat} (h : IsTag t n) : 0 < t.length :=
  List.length_pos_iff.mpr (tag_ne_nil h)

/-- One step of the decoder, once a tag is there. -/
theorem body_tag {t : Bytes} {n : Nat} (ht : IsTag t n) (fuel depth : Nat) (r : Bytes) :
    body (fuel + 1) depth (t ++ r) =
      if n / 8 = 0 then none
      else if n % 8 = 4 then some ([], some (n / 8, r))
      else if n % 8 = 3 then
        match depth with
        | 0 => none
        | d + 1 =>
          match body fuel d r with
          | some (_, some (j, rest)) => if j = n / 8 then body fuel (d + 1) rest else none
          | _ => none
      else match readValue (n % 8) r with
        | none => none
        | some (v, bs) => (body fuel depth bs).map fun x => ((n / 8, v) :: x.1, x.2) := by
  obtain ⟨b, t', rfl⟩ := List.exists_cons_of_ne_nil (tag_ne_nil ht)
  have h := (readNum32_iff (r := r)).mpr ⟨_, rfl, ht⟩
  rw [List.cons_append] at h ⊢
  rw [body.eq_def]
  simp only [h]
  rfl

theorem body_mono : ∀ (fuel fuel' d : Nat) (bs : Bytes) {x}, fuel ≤ fuel' →
    body fuel d bs = some x → body fuel' d bs = some x
  | fuel, fuel', d, [], x, _, h => by
    cases fuel <;> cases fuel' <;> exact h
  | 0, _, _, _ :: _, _, _, h => by cases h
  | fuel + 1, fuel', d, b :: bs, x, hf, h => by
    obtain ⟨k, rfl⟩ : ∃ k, fuel' = k + 1 := ⟨fuel' - 1, by omega⟩
    have hk : fuel ≤ k := by omega
    cases hn : readNum32 (b :: bs) with
    | none => rw [body.eq_def] at h; simp only [hn] at h; cases h
    | some y =>
      obtain ⟨n, r⟩ := y
      obtain ⟨t, he, ht⟩ := readNum32_iff.mp hn
      rw [he] at h ⊢
      rw [body_tag ht] at h ⊢
      split at h
      · cases h
      next h0 =>
      rw [if_neg h0]
      split at h
      · next h4 => rw [if_pos h4]; exact h
      next h4 =>
      rw [if_neg h4]
      split at h
      · next h3 =>
        rw [if_pos h3]
        cases d with
        | zero => cases h
        | succ d =>
          simp only at h ⊢
          cases hb : body fuel d r with
          | none => rw [hb] at h; cases h
          | some z =>
            obtain ⟨gs, e⟩ := z
            rw [hb] at h
            rw [body_mono fuel k d r hk hb]
            cases e with
            | none => cases h
            | some e =>
              obtain ⟨j, rest⟩ := e
              simp only at h ⊢
              split at h
              · next hj => rw [if_pos hj]; exact body_mono fuel k (d + 1) rest hk h
              · cases h
      next h3 =>
      rw [if_neg h3]
      cases hv : readValue (n % 8) r with
      | none => rw [hv] at h; cases h
      | some z =>
        obtain ⟨v, r'⟩ := z
        rw [hv] at h
        simp only [Option.map_eq_some_iff] at h ⊢
        obtain ⟨y, hy, rfl⟩ := h
        exact ⟨y, body_mono fuel k d r' hk hy, rfl⟩

theorem body_sound : ∀ (fuel d : Nat) (bs : Bytes) {fs : List Field} {e : Option (Nat × Bytes)},
    body fuel d bs = some (fs, e) →
    match e with
    | none => Message d bs fs
    | some (i, rest) => ∃ inner t, bs = inner ++ (t ++ rest) ∧ Message d inner fs ∧
        IsTag t (8 * i + 4) ∧ i ≠ 0
  | fuel, d, [], fs, e, h => by
    have : some (([], none) : List Field × Option (Nat × Bytes)) = some (fs, e) := by
      cases fuel <;> exact h
    cases this
    exact .nil
  | 0, _, _ :: _, _, _, h => by cases h
  | fuel + 1, d, b :: bs, fs, e, h => by
    cases hn : readNum32 (b :: bs) with
    | none => rw [body.eq_def] at h; simp only [hn] at h; cases h
    | some y =>
      obtain ⟨n, r⟩ := y
      obtain ⟨t, he, ht⟩ := readNum32_iff.mp hn
      rw [he] at h ⊢
      rw [body_tag ht] at h
      have hdiv := Nat.div_add_mod n 8
      split at h
      · cases h
      next h0 =>
      split at h
      · next h4 =>
        cases h
        exact ⟨[], t, rfl, .nil, by rw [h4] at hdiv; rw [hdiv]; exact ht, h0⟩
      next h4 =>
      split at h
      · next h3 =>
        rw [h3] at hdiv
        rw [← hdiv] at ht
        cases d with
        | zero => cases h
        | succ d =>
          simp only at h
          cases hb : body fuel d r with
          | none => rw [hb] at h; cases h
          | some z =>
            obtain ⟨gs, e'⟩ := z
            rw [hb] at h
            cases e' with
            | none => cases h
            | some e' =>
              obtain ⟨j, rest⟩ := e'
              simp only at h
              split at h
              · next hj =>
                subst hj
                obtain ⟨inner, t', rfl, hm, ht', hi⟩ := body_sound fuel d r hb
                have ih := body_sound fuel (d + 1) rest h
                cases e with
                | none =>
                  have := Message.group hi ht hm ht' ih
                  simpa using this
                | some e =>
                  obtain ⟨i, rest'⟩ := e
                  obtain ⟨inner', t'', rfl, hm', ht'', hi'⟩ := ih
                  refine ⟨t ++ inner ++ t' ++ inner', t'', by simp, ?_, ht'', hi'⟩
                  exact .group hi ht hm ht' hm'
              · cases h
      next h3 =>
      cases hv : readValue (n % 8) r with
      | none => rw [hv] at h; cases h
      | some z =>
        obtain ⟨v, r'⟩ := z
        rw [hv] at h
        simp only [Option.map_eq_some_iff] at h
        obtain ⟨⟨fs', e'⟩, hy, hx⟩ := h
        cases hx
        obtain ⟨a, rfl, ha⟩ := readValue_sound hv
        have hf : IsField (t ++ a) (n / 8, v) :=
          isField_iff.mpr ⟨t, n % 8, a, rfl, h0, by rw [hdiv]; exact ht, ha⟩
        have ih := body_sound fuel d r' hy
        cases e' with
        | none =>
          have := Message.field hf ih
          simpa using this
        | some e =>
          obtain ⟨i, rest⟩ := e
          obtain ⟨inner, t', rfl, hm, ht', hi⟩ := ih
          exact ⟨t ++ a ++ inner, t', by simp, .field hf hm, ht', hi⟩

theorem body_complete {d : Nat} {a : Bytes} {fs : List Field} (h : Message d a fs) :
    ∀ (rest : Bytes) (fuel : Nat) {x}, (a ++ rest).length ≤ fuel →
      body rest.length d rest = some x → body fuel d (a ++ rest) = some (fs ++ x.1, x.2) := by
  induction h with
  | nil =>
    intro rest fuel x hf hx
    exact body_mono _ _ _ _ (by simpa using hf) hx
  | @field d a r f fs ha _ ih =>
    intro rest fuel x hf hx
    obtain ⟨i, v⟩ := f
    obtain ⟨t, w, b, rfl, hi, ht, hv⟩ := isField_iff.mp ha
    have hp := tag_pos ht
    have hw := hv.small
    simp only [List.length_append] at hf
    obtain ⟨k, rfl⟩ : ∃ k, fuel = k + 1 := ⟨fuel - 1, by omega⟩
    rw [List.append_assoc, List.append_assoc, body_tag ht, if_neg (by omega), if_neg (by omega),
      if_neg (by omega), show (8 * i + w) % 8 = w by omega, readValue_complete hv]
    simp only [ih rest k (by simp only [List.length_append]; omega) hx, Option.map_some,
      show (8 * i + w) / 8 = i by omega, List.cons_append]
  | @group d i s inner e r gs fs hi hs _ he _ ih1 ih2 =>
    intro rest fuel x hf hx
    have hp := tag_pos hs
    have hq := tag_pos he
    simp only [List.length_append] at hf
    obtain ⟨k, rfl⟩ : ∃ k, fuel = k + 1 := ⟨fuel - 1, by omega⟩
    have hend : body (e ++ (r ++ rest)).length d (e ++ (r ++ rest)) =
        some ([], some (i, r ++ rest)) := by
      obtain ⟨m, hm⟩ : ∃ m, (e ++ (r ++ rest)).length = m + 1 :=
        ⟨(e ++ (r ++ rest)).length - 1, by simp only [List.length_append]; omega⟩
      rw [hm, body_tag he, if_neg (by omega), if_pos (by omega),
        show (8 * i + 4) / 8 = i by omega]
    have h1 := ih1 (e ++ (r ++ rest)) k (by simp only [List.length_append]; omega) hend
    have h2 := ih2 rest k (by simp only [List.length_append]; omega) hx
    rw [show s ++ inner ++ e ++ r ++ rest = s ++ (inner ++ (e ++ (r ++ rest))) by simp,
      body_tag hs, if_neg (by omega), if_neg (by omega), if_pos (by omega)]
    simp only [h1, show (8 * i + 3) / 8 = i by omega, if_true, h2]

/-- The decoder accepts exactly the messages of the grammar, with their fields. -/
theorem decode_iff {d : Nat} {bs : Bytes} {fs : List Field} :
    decode d bs = some fs ↔ Message d bs fs := by
  unfold decode
  constructor
  · intro h
    cases hb : body bs.length d bs with
    | none => rw [hb] at h; cases h
    | some x =>
      obtain ⟨gs, e⟩ := x
      rw [hb] at h
      cases e with
      | none => cases h; exact body_sound _ _ _ hb
      | some e => cases h
  · intro h
    have := body_complete h [] (a := bs) bs.length (x := ([], none)) (by simp) rfl
    rw [List.append_nil, List.append_nil] at this
    rw [this]

/-- More fuel than bytes changes nothing. -/
theorem body_fuel (fuel d : Nat) (bs : Bytes) (h : bs.length ≤ fuel) :
    body fuel d bs = body bs.length d bs := by
  cases hb : body bs.length d bs with
  | some x => exact body_mono _ _ _ _ h hb
  | none =>
    cases hf : body fuel d bs with
    | none => rfl
    | some x =>
      exfalso
      obtain ⟨fs, e⟩ := x
      have hs := body_sound _ _ _ hf
      cases e with
      | none =>
        have := body_complete hs [] bs.length (x := ([], none)) (by simp) rfl
        rw [List.append_nil] at this
        rw [this] at hb
        cases hb
      | some e =>
        obtain ⟨i, rest⟩ := e
        obtain ⟨inner, t, rfl, hm, ht, hi⟩ := hs
        have hp := tag_pos ht
        have hend : body (t ++ rest).length d (t ++ rest) = some ([], some (i, rest)) := by
          obtain ⟨m, hm⟩ : ∃ m, (t ++ rest).length = m + 1 :=
            ⟨(t ++ rest).length - 1, by simp only [List.length_append]; omega⟩
          rw [hm, body_tag ht, if_neg (by omega), if_pos (by omega),
            show (8 * i + 4) / 8 = i by omega]
        have := body_complete hm (t ++ rest) (inner ++ (t ++ rest)).length (Nat.le_refl _) hend
        rw [this] at hb
        cases hb

/-- A field in front of a message is its first field. -/
theorem decode_field {a : Bytes} {f : Field} (h : IsField a f) (d : Nat) (r : Bytes) :
    decode d (a ++ r) = (decode d r).map (f :: ·) := by
  obtain ⟨i, v⟩ := f
  obtain ⟨t, w, b, rfl, hi, ht, hv⟩ := isField_iff.mp h
  have hp := tag_pos ht
  have hw := hv.small
  obtain ⟨k, hk⟩ : ∃ k, (t ++ b ++ r).length = k + 1 :=
    ⟨(t ++ b ++ r).length - 1, by simp only [List.length_append]; omega⟩
  have hk' : r.length ≤ k := by simp only [List.length_append] at hk; omega
  unfold decode
  rw [hk, List.append_assoc, body_tag ht, if_neg (by omega), if_neg (by omega),
    if_neg (by omega), show (8 * i + w) % 8 = w by omega, readValue_complete hv]
  simp only [body_fuel k d r hk', show (8 * i + w) / 8 = i by omega]
  cases body r.length d r with
  | none => rfl
  | some x => obtain ⟨fs, e⟩ := x; cases e <;> rfl

/-- A group in front of a message is skipped. -/
theorem decode_group {d : Nat} {g : Bytes} (h : IsGroup d g) (r : Bytes) :
    decode d (g ++ r) = decode d r := by
  obtain ⟨d, i, s, inner, e, gs, rfl, rfl, hi, hs, hm, he⟩ := h
  have hp := tag_pos hs
  have hq := tag_pos he
  obtain ⟨k, hk⟩ : ∃ k, (s ++ inner ++ e ++ r).length = k + 1 :=
    ⟨(s ++ inner ++ e ++ r).length - 1, by simp only [List.length_append]; omega⟩
  simp only [List.length_append] at hk
  have hend : body (e ++ r).length d (e ++ r) = some ([], some (i, r)) := by
    obtain ⟨m, hm⟩ : ∃ m, (e ++ r).length = m + 1 :=
      ⟨(e ++ r).length - 1, by simp only [List.length_append]; omega⟩
    rw [hm, body_tag he, if_neg (by omega), if_pos (by omega),
      show (8 * i + 4) / 8 = i by omega]
  have h1 := body_complete hm (e ++ r) k (by simp only [List.length_append]; omega) hend
  have h2 : body (s ++ inner ++ e ++ r).length (d + 1) (s ++ inner ++ e ++ r) =
      body r.length (d + 1) r := by
    rw [show (s ++ inner ++ e ++ r).length = k + 1 by simp only [List.length_append]; omega,
      show s ++ inner ++ e ++ r = s ++ (inner ++ (e ++ r)) by simp,
      body_tag hs, if_neg (by omega), if_neg (by omega), if_pos (by omega)]
    simp only [h1, show (8 * i + 3) / 8 = i by omega, if_true]
    exact body_fuel _ _ _ (by omega)
  unfold decode
  rw [h2]

/-- The fields of a message in front of another one come first. -/
theorem decode_append {d : Nat} {a : Bytes} {fs : List Field} (h : Message d a fs) (r : Bytes) :
    decode d (a ++ r) = (decode d r).map (fs ++ ·) := by
  induction h generalizing r with
  | nil => simp
  | field hf _ ih =>
    rw [List.append_assoc, decode_field hf, ih]
    cases decode _ r <;> rfl
  | group hi hs hm he _ _ ih =>
    rw [List.append_assoc, decode_group ⟨_, _, _, _, _, _, rfl, rfl, hi, hs, hm, he⟩, ih]

theorem field_of_wire {a : Bytes} {f : Field} (h : WireField a f) (h1 : f.1 < 2 ^ 29)
    (h2 : ∀ b, f.2 = .len b → b.length < 2 ^ 31 - 1) : IsField a f := by
  cases h with
  | varint ht hg hi hv =>
    exact .varint ⟨ht, by rw [hg]; exact Nat.mod_eq_of_lt (by simp only at h1; omega),
      by simp only at h1; omega⟩ hi hv
  | fixed64 ht hg hi hb =>
    exact .fixed64 ⟨ht, by rw [hg]; exact Nat.mod_eq_of_lt (by simp only at h1; omega),
      by simp only at h1; omega⟩ hi hb
  | len ht hg hi hn hb =>
    have := h2 _ rfl
    exact .len ⟨ht, by rw [hg]; exact Nat.mod_eq_of_lt (by simp only at h1; omega),
      by simp only at h1; omega⟩ hi hn (by rw [hb]; exact Nat.mod_eq_of_lt (by omega)) this
  | fixed32 ht hg hi hb =>
    exact .fixed32 ⟨ht, by rw [hg]; exact Nat.mod_eq_of_lt (by simp only at h1; omega),
      by simp only at h1; omega⟩ hi hb

/-- A part of a message without groups is without groups. -/
theorem wire_of_prefix {d : Nat} {p t : Bytes} {fs gs : List Field} (h : Message d p gs)
    (hw : WireMessage (p ++ t) fs)
    (hs : ∀ f ∈ fs, f.1 < 2 ^ 29 ∧ ∀ b, f.2 = .len b → b.length < 2 ^ 31 - 1) :
    WireMessage p gs := by
  induction h generalizing t fs with
  | nil => exact .nil
  | @field d a r f gs ha _ ih =>
    obtain ⟨i, v⟩ := f
    obtain ⟨u, w, b, rfl, hi, hu, hv⟩ := isField_iff.mp ha
    generalize hz : u ++ b ++ r ++ t = z at hw
    cases hw with
    | nil => exact absurd (List.append_eq_nil_iff.mp (List.append_eq_nil_iff.mp
        (List.append_eq_nil_iff.mp hz).1).1).1 (tag_ne_nil hu)
    | @cons a' r' f' fs' hf' hm' =>
      have hlim := hs f' (List.mem_cons_self ..)
      have hq := isField_iff.mp (show IsField a' (f'.1, f'.2) from field_of_wire hf' hlim.1 hlim.2)
      obtain ⟨u', w', b', rfl, hi', hu', hv'⟩ := hq
      have e1 := (readNum32_iff (bs := u ++ b ++ r ++ t) (r := b ++ r ++ t)).mpr
        ⟨u, by simp, hu⟩
      have e2 := (readNum32_iff (bs := u ++ b ++ r ++ t) (r := b' ++ r')).mpr
        ⟨u', by rw [hz]; simp, hu'⟩
      rw [e1] at e2
      simp only [Option.some.injEq, Prod.mk.injEq] at e2
      obtain ⟨en, er⟩ := e2
      have hsm := hv.small
      have hsm' := hv'.small
      have ew : w = w' := by omega
      subst ew
      have e3 := readValue_complete hv (r ++ t)
      have e4 := readValue_complete hv' r'
      rw [← List.append_assoc, er, e4] at e3
      simp only [Option.some.injEq, Prod.mk.injEq] at e3
      obtain ⟨ev, err⟩ := e3
      subst err
      have eb : b = b' := by
        rw [List.append_assoc] at er
        exact List.append_cancel_right er
      subst eb
      have eu : u = u' := by
        have : u ++ (b ++ (r ++ t)) = u' ++ (b ++ (r ++ t)) := by simpa using hz
        exact List.append_cancel_right this
      subst eu
      have ef : f' = (i, v) := Prod.ext (by simp only; omega) ev
      rw [ef] at hf'
      exact .cons hf' (ih hm' fun f hf => hs f (List.mem_cons_of_mem _ hf))
  | @group d i s inner e r gs hs' hi hs1 _ _ _ _ _ =>
    generalize hz : s ++ inner ++ e ++ r ++ t = z at hw
    cases hw with
    | nil => simp only [List.append_eq_nil_iff] at hz; exact absurd hz.1.1.1.1 (tag_ne_nil hs1)
    | @cons a' r' f' fs' hf' hm' =>
      have hlim := hs f' (List.mem_cons_self ..)
      have hq := isField_iff.mp (show IsField a' (f'.1, f'.2) from field_of_wire hf' hlim.1 hlim.2)
      obtain ⟨u', w', b', rfl, hi', hu', hv'⟩ := hq
      have e1 := (readNum32_iff (bs := s ++ inner ++ e ++ r ++ t)
        (r := inner ++ e ++ r ++ t)).mpr ⟨s, by simp, hs1⟩
      have e2 := (readNum32_iff (bs := s ++ inner ++ e ++ r ++ t) (r := b' ++ r')).mpr
        ⟨u', by rw [hz]; simp, hu'⟩
      rw [e1] at e2
      simp only [Option.some.injEq, Prod.mk.injEq] at e2
      have hsm' := hv'.small
      omega

end S2A.Upb
