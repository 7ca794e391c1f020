import Verif.Lemmas.Groups
/-
Which bytes are refused by the decoder that skips groups.
-/
namespace S2A.Upb
open Wire
open S2A.Spec (groups IsVarint)
open S2A.Spec.Upb (IsTag IsField Message IsGroup Refused)

/-- What `body` does after a message. -/
theorem body_append {d : Nat} {a : Bytes} {fs : List Field} (h : Message d a fs) :
    ∀ (r : Bytes) (fuel : Nat), (a ++ r).length ≤ fuel →
      body fuel d (a ++ r) = (body r.length d r).map fun x => (fs ++ x.1, x.2) := by
  induction h with
  | nil =>
    intro r fuel hf
    rw [List.nil_append, body_fuel fuel _ r (by simpa using hf)]
    cases body r.length _ r <;> rfl
  | @field d a r' f fs ha _ ih =>
    intro r fuel hf
    obtain ⟨i, v⟩ := f
    obtain ⟨t, w, b, rfl, hi, ht, hv⟩ := isField_iff.mp ha
    have hp := tag_pos ht
    have hw := hv.small
    simp only [List.length_append] at hf
    obtain ⟨k, rfl⟩ : ∃ k, fuel = k + 1 := ⟨fuel - 1, by omega⟩
    rw [List.append_assoc, List.append_assoc, body_tag ht, if_neg (by omega), if_neg (by omega),
      if_neg (by omega), show (8 * i + w) % 8 = w by omega, readValue_complete hv]
    simp only [ih r k (by simp only [List.length_append]; omega),
      show (8 * i + w) / 8 = i by omega]
    cases body r.length d r <;> rfl
  | @group d i s inner e r' gs fs hi hs hm he _ _ ih =>
    intro r fuel hf
    have hp := tag_pos hs
    have hq := tag_pos he
    simp only [List.length_append] at hf
    obtain ⟨k, rfl⟩ : ∃ k, fuel = k + 1 := ⟨fuel - 1, by omega⟩
    have hend : body (e ++ (r' ++ r)).length d (e ++ (r' ++ r)) =
        some ([], some (i, r' ++ r)) := by
      obtain ⟨m, hm⟩ : ∃ m, (e ++ (r' ++ r)).length = m + 1 :=
        ⟨(e ++ (r' ++ r)).length - 1, by simp only [List.length_append]; omega⟩
      rw [hm, body_tag he, if_neg (by omega), if_pos (by omega),
        show (8 * i + 4) / 8 = i by omega]
    have h1 := body_complete hm (e ++ (r' ++ r)) k (by simp only [List.length_append]; omega) hend
    rw [show s ++ inner ++ e ++ r' ++ r = s ++ (inner ++ (e ++ (r' ++ r))) by simp,
      body_tag hs, if_neg (by omega), if_neg (by omega), if_pos (by omega)]
    simp only [h1, show (8 * i + 3) / 8 = i by omega, if_true]
    exact ih r k (by simp only [List.length_append]; omega)

theorem readVarint_endless : ∀ (k : Nat) (bs : Bytes), (∀ b ∈ bs.take k, 128 ≤ b.toNat) →
    readVarint k bs = none
  | 0, _, _ => rfl
  | _ + 1, [], _ => rfl
  | k + 1, b :: bs, h => by
    have hb : 128 ≤ b.toNat := h b (by simp)
    have hlt : ¬ b < 128 := by
      rw [UInt8.lt_iff_toNat_lt]
      exact Nat.not_lt.mpr hb
    rw [readVarint, if_neg hlt, readVarint_endless k bs fun c hc => h c (by simp [hc])]

theorem readVarint_none : ∀ (k : Nat) (bs : Bytes), readVarint k bs = none →
    ∀ b ∈ bs.take k, 128 ≤ b.toNat
  | 0, _, _ => by simp
  | _ + 1, [], _ => by simp
  | k + 1, b :: bs, h => by
    rw [readVarint] at h
    split at h
    · cases h
    · next hlt =>
      split at h
      · next hn =>
        intro c hc
        simp only [List.take_succ_cons, List.mem_cons] at hc
        rcases hc with rfl | hc
        · rw [UInt8.lt_iff_toNat_lt] at hlt
          exact Nat.not_lt.mp hlt
        · exact readVarint_none k bs hn c hc
      · cases h

theorem readNum_none {bs : Bytes} : readNum bs = none ↔ ∀ b ∈ bs.take 10, 128 ≤ b.toNat := by
  unfold readNum
  constructor
  · intro h
    refine readVarint_none 10 bs ?_
    cases hr : readVarint 10 bs with
    | none => rfl
    | some x => rw [hr] at h; cases h
  · intro h
    rw [readVarint_endless 10 bs h]
    rfl

theorem readNum32_none {bs : Bytes} : readNum32 bs = none ↔ (∀ b ∈ bs.take 10, 128 ≤ b.toNat) ∨
    ∃ t r, bs = t ++ r ∧ IsVarint t ∧ 2 ^ 32 ≤ groups t % 2 ^ 64 := by
  constructor
  · intro h
    cases hn : readNum bs with
    | none => exact .inl (readNum_none.mp hn)
    | some x =>
      obtain ⟨n, r⟩ := x
      obtain ⟨t, rfl, ht, rfl⟩ := readNum_iff.mp hn
      refine .inr ⟨t, r, rfl, ht, ?_⟩
      rw [readNum32, hn] at h
      simp only [Option.bind_eq_bind, Option.bind_some] at h
      split at h
      · cases h
      · omega
  · rintro (h | ⟨t, r, rfl, ht, hb⟩)
    · rw [readNum32, readNum_none.mpr h]; rfl
    · rw [readNum32, readNum_iff.mpr ⟨t, rfl, ht, rfl⟩]
      simp only [Option.bind_eq_bind, Option.bind_some]
      rw [if_neg (by omega)]

theorem body_bad_tag {bs : Bytes} (h : bs ≠ []) (hn : readNum32 bs = none) (fuel d : Nat) :
    body fuel d bs = none := by
  obtain ⟨b, t, rfl⟩ := List.exists_cons_of_ne_nil h
  cases fuel with
  | zero => rfl
  | succ fuel => rw [body.eq_def]; simp only [hn]

/-- One step, for any fuel. -/
theorem body_step {t : Bytes} {n : Nat} (ht : IsTag t n) (fuel d : Nat) (r : Bytes)
    (h : ∀ k, body (k + 1) d (t ++ r) = none) : body fuel d (t ++ r) = none := by
  cases fuel with
  | zero =>
    obtain ⟨b, t', rfl⟩ := List.exists_cons_of_ne_nil (tag_ne_nil ht)
    rfl
  | succ k => exact h k

theorem body_bad_value {t : Bytes} {n : Nat} (ht : IsTag t n) (r : Bytes) (h3 : n % 8 ≠ 3)
    (h4 : n % 8 ≠ 4) (hv : readValue (n % 8) r = none) (fuel d : Nat) :
    body fuel d (t ++ r) = none := by
  refine body_step ht fuel d r fun k => ?_
  rw [body_tag ht]
  split
  · rfl
  · simp only [hv]

theorem body_deep : ∀ (ts : List Bytes) (d : Nat) (r : Bytes) (fuel : Nat), d < ts.length →
    (∀ t ∈ ts, ∃ i, i ≠ 0 ∧ IsTag t (8 * i + 3)) → body fuel d (ts.flatten ++ r) = none
  | [], _, _, _, h, _ => by simp at h
  | t :: ts, d, r, fuel, h, ha => by
    obtain ⟨i, hi, ht⟩ := ha t (by simp)
    rw [List.flatten_cons, List.append_assoc]
    refine body_step ht fuel d _ fun k => ?_
    rw [body_tag ht, if_neg (by omega), if_neg (by omega), if_pos (by omega)]
    cases d with
    | zero => rfl
    | succ d =>
      simp only [body_deep ts d r k (by simpa using h) fun t ht => ha t (by simp [ht])]

/-- A refused continuation: the decoder fails, or is at the end of a group. -/
theorem refused_body {d : Nat} {x : Bytes} (h : Refused d x) :
    (∃ j e r, j ≠ 0 ∧ IsTag e (8 * j + 4) ∧ x = e ++ r) ∨ ∀ fuel, body fuel d x = none := by
  induction h with
  | deep hl ha => exact .inr fun fuel => body_deep _ _ _ fuel hl ha
  | @unclosed d i s inner gs hs hm =>
    refine .inr fun fuel => body_step hs fuel _ _ fun k => ?_
    rw [body_tag hs]
    split
    · rfl
    · rw [if_neg (by omega), if_pos (by omega)]
      simp only
      cases hb : body k d inner with
      | none => rfl
      | some x =>
        have h1 := body_mono k (max k inner.length) d inner (Nat.le_max_left ..) hb
        have h2 := body_complete hm [] (max k inner.length) (x := ([], none))
          (by simp only [List.append_nil]; exact Nat.le_max_right ..) rfl
        rw [List.append_nil, h1] at h2
        cases h2
        rfl
  | @mismatch d i j s inner e r gs hs hm he hj =>
    rw [show s ++ inner ++ e ++ r = s ++ (inner ++ (e ++ r)) by simp]
    refine .inr fun fuel => body_step hs fuel _ _ fun k => ?_
    have hq := tag_pos he
    rw [body_tag hs]
    split
    · rfl
    · rw [if_neg (by omega), if_pos (by omega)]
      simp only
      cases hb : body k d (inner ++ (e ++ r)) with
      | none => rfl
      | some x =>
        have h1 := body_mono k (max k (inner ++ (e ++ r)).length) d _ (Nat.le_max_left ..) hb
        rw [body_append hm (e ++ r) _ (Nat.le_max_right ..)] at h1
        obtain ⟨m, hm⟩ : ∃ m, (e ++ r).length = m + 1 :=
          ⟨(e ++ r).length - 1, by simp only [List.length_append]; omega⟩
        rw [hm, body_tag he] at h1
        split at h1
        · cases h1
        · rw [if_pos (by omega)] at h1
          simp only [Option.map_some, Option.some.injEq] at h1
          subst h1
          simp only
          rw [if_neg (by omega)]
  | @unopened d j e r he =>
    by_cases hj : j = 0
    · subst hj
      refine .inr fun fuel => body_step he fuel _ _ fun k => ?_
      rw [body_tag he, if_pos (by omega)]
    · exact .inl ⟨j, e, r, hj, he, rfl⟩
  | @inside d i s a x gs hs hm _ hx ih =>
    rcases ih with ⟨j, e, r, hj, he, rfl⟩ | ih
    · exact absurd rfl (hx j e r hj he)
    · rw [List.append_assoc]
      refine .inr fun fuel => body_step hs fuel _ _ fun k => ?_
      rw [body_tag hs]
      split
      · rfl
      · rw [if_neg (by omega), if_pos (by omega)]
        simp only
        cases hb : body k d (a ++ x) with
        | none => rfl
        | some y =>
          have h1 := body_mono k (max k (a ++ x).length) d _ (Nat.le_max_left ..) hb
          rw [body_append hm x _ (Nat.le_max_right ..), ih] at h1
          cases h1
  | bigTag ht hb =>
    exact .inr (body_bad_tag (by simp [Wire.IsVarint.ne_nil ht])
      (readNum32_none.mpr (.inr ⟨_, _, rfl, ht, hb⟩)) · _)
  | zero ht hn =>
    refine .inr fun fuel => body_step ht fuel _ _ fun k => ?_
    rw [body_tag ht, if_pos (by omega)]
  | @type d n t r ht hn =>
    refine .inr (body_bad_value ht r (by omega) (by omega) ?_ · d)
    have : n % 8 = 6 ∨ n % 8 = 7 := by omega
    rcases this with h | h <;> rw [h] <;> rfl
  | @bigLen d i t n r ht hn hb =>
    rw [List.append_assoc]
    refine .inr (body_bad_value ht _ (by omega) (by omega) ?_ · d)
    rw [show (8 * i + 2) % 8 = 2 by omega, readValue]
    by_cases h : groups n % 2 ^ 64 < 2 ^ 32
    · rw [readNum32_iff.mpr ⟨n, rfl, hn, rfl, h⟩]
      simp only [Option.bind_eq_bind, Option.bind_some]
      rw [if_neg (by omega)]
    · rw [readNum32_none.mpr (.inr ⟨n, r, rfl, hn, by omega⟩)]
      rfl
  | @shortLen d i t n r ht hn hb =>
    rw [List.append_assoc]
    refine .inr (body_bad_value ht _ (by omega) (by omega) ?_ · d)
    rw [show (8 * i + 2) % 8 = 2 by omega, readValue]
    by_cases h : groups n % 2 ^ 64 < 2 ^ 32
    · rw [readNum32_iff.mpr ⟨n, rfl, hn, rfl, h⟩]
      simp only [Option.bind_eq_bind, Option.bind_some]
      split
      · rw [readBytes, if_neg (by omega)]; rfl
      · rfl
    · rw [readNum32_none.mpr (.inr ⟨n, r, rfl, hn, by omega⟩)]
      rfl
  | @short64 d i t r ht hb =>
    refine .inr (body_bad_value ht _ (by omega) (by omega) ?_ · d)
    rw [show (8 * i + 1) % 8 = 1 by omega, readValue, readBytes, if_neg (by omega)]; rfl
  | @short32 d i t r ht hb =>
    refine .inr (body_bad_value ht _ (by omega) (by omega) ?_ · d)
    rw [show (8 * i + 5) % 8 = 5 by omega, readValue, readBytes, if_neg (by omega)]; rfl
  | endless hne hb =>
    exact .inr (body_bad_tag hne (readNum32_none.mpr (.inl hb)) · _)
  | @endlessValue d i t r ht hb =>
    refine .inr (body_bad_value ht _ (by omega) (by omega) ?_ · d)
    rw [show (8 * i) % 8 = 0 by omega, readValue, readNum_none.mpr hb]; rfl
  | @endlessLen d i t r ht hb =>
    refine .inr (body_bad_value ht _ (by omega) (by omega) ?_ · d)
    rw [show (8 * i + 2) % 8 = 2 by omega, readValue, readNum32_none.mpr (.inl hb)]; rfl

/-- Nothing that contains a refused continuation is accepted. -/
theorem decode_refused {d : Nat} {a x : Bytes} {fs : List Field} (h : Message d a fs)
    (hx : Refused d x) : decode d (a ++ x) = none := by
  unfold decode
  rw [body_append h x _ (Nat.le_refl _)]
  rcases refused_body hx with ⟨j, e, r, hj, he, rfl⟩ | hb
  · have hq := tag_pos he
    obtain ⟨m, hm⟩ : ∃ m, (e ++ r).length = m + 1 :=
      ⟨(e ++ r).length - 1, by simp only [List.length_append]; omega⟩
    rw [hm, body_tag he, if_neg (by omega), if_pos (by omega)]
    rfl
  · rw [hb]; rfl

/-- Bytes on which the reader of fields fails. -/
theorem refused_value {d i w : Nat} {t r : Bytes} (ht : IsTag t (8 * i + w)) (hw : w < 8)
    (h3 : w ≠ 3) (h4 : w ≠ 4) (h : readValue w r = none) : Refused d (t ++ r) := by
  have hcases : w = 0 ∨ w = 1 ∨ w = 2 ∨ w = 5 ∨ w = 6 ∨ w = 7 := by omega
  rcases hcases with rfl | rfl | rfl | rfl | rfl | rfl
  · rw [readValue] at h
    refine .endlessValue ht (readNum_none.mp ?_)
    cases hn : readNum r with
    | none => rfl
    | some x => rw [hn] at h; cases h
  · rw [readValue, readBytes] at h
    refine .short64 ht ?_
    split at h
    · cases h
    · omega
  · rw [readValue] at h
    cases hn : readNum32 r with
    | none =>
      rcases readNum32_none.mp hn with hb | ⟨n, r', rfl, hv, hb⟩
      · exact .endlessLen ht hb
      · rw [← List.append_assoc]
        exact .bigLen ht hv (by omega)
    | some x =>
      obtain ⟨m, r'⟩ := x
      rw [hn] at h
      obtain ⟨n, rfl, hv, hm, _⟩ := readNum32_iff.mp hn
      simp only [Option.bind_eq_bind, Option.bind_some] at h
      rw [← List.append_assoc]
      split at h
      · rw [readBytes] at h
        split at h
        · cases h
        · exact .shortLen ht hv (by omega)
      · exact .bigLen ht hv (by omega)
  · rw [readValue, readBytes] at h
    refine .short32 ht ?_
    split at h
    · cases h
    · omega
  · exact .type ht (by omega)
  · exact .type ht (by omega)

/-- Where the decoder fails. -/
theorem body_none : ∀ (fuel d : Nat) (bs : Bytes), bs.length ≤ fuel → body fuel d bs = none →
    ∃ a fs x, bs = a ++ x ∧ Message d a fs ∧ Refused d x ∧
      ∀ j e r, j ≠ 0 → IsTag e (8 * j + 4) → x ≠ e ++ r
  | fuel, d, [], _, h => by cases fuel <;> cases h
  | 0, _, _ :: _, hf, _ => by simp at hf
  | fuel + 1, d, b :: bs, hf, h => by
    cases hn : readNum32 (b :: bs) with
    | none =>
      refine ⟨[], [], b :: bs, rfl, .nil, ?_, ?_⟩
      · rcases readNum32_none.mp hn with hb | ⟨t, r, ht, hv, hb⟩
        · exact .endless (by simp) hb
        · rw [ht]; exact .bigTag hv hb
      · intro j e r _ he hx
        rw [hx, readNum32_iff.mpr ⟨e, rfl, he⟩] at hn
        cases hn
    | some y =>
      obtain ⟨n, r⟩ := y
      obtain ⟨t, hbs, ht⟩ := readNum32_iff.mp hn
      have hp := tag_pos ht
      rw [hbs] at h hf ⊢
      simp only [List.length_append] at hf
      rw [body_tag ht] at h
      have hnoend : n % 8 ≠ 4 ∨ n / 8 = 0 → ∀ j e r', j ≠ 0 → IsTag e (8 * j + 4) →
          t ++ r ≠ e ++ r' := by
        intro hc j e r' hj he hx
        have e1 := (readNum32_iff (r := r)).mpr ⟨t, rfl, ht⟩
        rw [hx, readNum32_iff.mpr ⟨e, rfl, he⟩] at e1
        simp only [Option.some.injEq, Prod.mk.injEq] at e1
        omega
      split at h
      · next h0 => exact ⟨[], [], t ++ r, rfl, .nil, .zero ht (by omega), hnoend (.inr h0)⟩
      · next h0 =>
        split at h
        · cases h
        · next h4 =>
          split at h
          · next h3 =>
            have ht' : IsTag t (8 * (n / 8) + 3) := by
              rw [show 8 * (n / 8) + 3 = n by omega]; exact ht
            cases d with
            | zero =>
              refine ⟨[], [], t ++ r, rfl, .nil, ?_, hnoend (.inl h4)⟩
              have := Refused.deep (d := 0) (ts := [t]) (r := r) (by simp)
                (fun u hu => ⟨n / 8, h0, by rw [List.mem_singleton.mp hu]; exact ht'⟩)
              simpa using this
            | succ d =>
              simp only at h
              cases hb : body fuel d r with
              | none =>
                obtain ⟨a, fs, x, rfl, hm, hx, hne⟩ := body_none fuel d r (by omega) hb
                refine ⟨[], [], t ++ (a ++ x), rfl, .nil, ?_, hnoend (.inl h4)⟩
                rw [← List.append_assoc]
                exact .inside ht' hm hx hne
              | some y =>
                obtain ⟨gs, e⟩ := y
                have hs := body_sound _ _ _ hb
                cases e with
                | none =>
                  exact ⟨[], [], t ++ r, rfl, .nil, .unclosed ht' hs, hnoend (.inl h4)⟩
                | some e =>
                  obtain ⟨j, rest⟩ := e
                  obtain ⟨inner, e, rfl, hm, he, hj⟩ := hs
                  rw [hb] at h
                  simp only at h
                  split at h
                  · next hji =>
                    subst hji
                    simp only [List.length_append] at hf
                    obtain ⟨a, fs, x, rfl, hm', hx, hne⟩ :=
                      body_none fuel (d + 1) rest (by omega) h
                    exact ⟨t ++ inner ++ e ++ a, fs, x, by simp, .group hj ht' hm he hm', hx, hne⟩
                  · next hji =>
                    refine ⟨[], [], t ++ (inner ++ (e ++ rest)), rfl, .nil, ?_, hnoend (.inl h4)⟩
                    have := Refused.mismatch (r := rest) ht' hm he hji
                    simpa using this
          · next h3 =>
            have ht' : IsTag t (8 * (n / 8) + n % 8) := by
              rw [show 8 * (n / 8) + n % 8 = n by omega]; exact ht
            cases hv : readValue (n % 8) r with
            | none =>
              exact ⟨[], [], t ++ r, rfl, .nil, refused_value ht' (by omega) h3 h4 hv,
                hnoend (.inl h4)⟩
            | some y =>
              obtain ⟨v, r'⟩ := y
              rw [hv] at h
              simp only [Option.map_eq_none_iff] at h
              obtain ⟨c, rfl, hc⟩ := readValue_sound hv
              simp only [List.length_append] at hf
              obtain ⟨a, fs, x, rfl, hm, hx, hne⟩ := body_none fuel d r' (by omega) h
              exact ⟨t ++ c ++ a, _, x, by simp,
                .field (isField_iff.mpr ⟨t, n % 8, c, rfl, by omega, ht', hc⟩) hm, hx, hne⟩

/-- What is not a message can be refused at some place. -/
theorem decode_none {d : Nat} {bs : Bytes} (h : decode d bs = none) :
    ∃ a fs x, bs = a ++ x ∧ Message d a fs ∧ Refused d x := by
  unfold decode at h
  cases hb : body bs.length d bs with
  | none =>
    obtain ⟨a, fs, x, h1, h2, h3, _⟩ := body_none _ _ _ (Nat.le_refl _) hb
    exact ⟨a, fs, x, h1, h2, h3⟩
  | some y =>
    obtain ⟨fs, e⟩ := y
    rw [hb] at h
    cases e with
    | none => cases h
    | some e =>
      obtain ⟨j, rest⟩ := e
      obtain ⟨inner, t, h1, hm, ht, _⟩ := body_sound _ _ _ hb
      exact ⟨inner, fs, t ++ rest, h1, hm, .unopened ht⟩

end S2A.Upb
