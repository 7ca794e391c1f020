import Verif.Lemmas.HandshakeLoop
namespace S2A.Handler
open Spec

/-- The bytes of an incomplete message. -/
def Incomplete (q : Bytes) : Prop := 4 ≤ q.length → q.length < 4 + bodyLen q

theorem hsSplit_inv (s : Bytes) (ms : List Bytes) (q : Bytes) (h : hsSplit s = (ms, q)) :
    (ms = [] ∧ s = q ∧ Incomplete q) ∨
    ∃ m ms' s', ms = m :: ms' ∧ s = m ++ s' ∧ hsSplit s' = (ms', q) ∧
      m.length = 4 + bodyLen m ∧ 4 ≤ m.length := by
  unfold hsSplit at h
  split at h
  · next t a b c rest =>
    split at h
    · next hl =>
      cases h
      right
      refine ⟨_, _, rest.drop (len24 a b c), rfl, by simp, rfl, ?_, by simp⟩
      simp [bodyLen]; omega
    · next hl =>
      cases h
      left
      refine ⟨rfl, rfl, ?_⟩
      intro _
      simp [bodyLen]; omega
  · next hx =>
    cases h
    left
    refine ⟨rfl, rfl, ?_⟩
    intro h4
    match s, h4 with
    | t :: a :: b :: c :: rest, _ => exact absurd rfl (hx t a b c rest)

theorem hsSplit_of_incomplete {q : Bytes} (h : Incomplete q) : hsSplit q = ([], q) := by
  unfold hsSplit
  split
  · next t a b c rest =>
    have := h (by simp)
    simp [bodyLen] at this
    rw [if_neg (by omega)]
  · rfl

theorem hsSplit_cons {m s : Bytes} (hl : m.length = 4 + bodyLen m) :
    hsSplit (m ++ s) = (m :: (hsSplit s).1, (hsSplit s).2) := by
  match m, hl with
  | t :: a :: b :: c :: body, hl =>
    simp [bodyLen] at hl
    have hb : body.length = len24 a b c := by omega
    conv => lhs; unfold hsSplit
    simp only [List.cons_append]
    rw [if_pos (by simp; omega)]
    simp [← hb]
  | [], hl => simp [bodyLen] at hl
  | [_], hl => simp [bodyLen] at hl
  | [_, _], hl => simp [bodyLen] at hl
  | [_, _, _], hl => simp [bodyLen] at hl

/-- Cutting the stream anywhere: parse the first part, then its rest with the second part. -/
theorem hsSplit_append (s s' : Bytes) :
    hsSplit (s ++ s') =
      ((hsSplit s).1 ++ (hsSplit ((hsSplit s).2 ++ s')).1, (hsSplit ((hsSplit s).2 ++ s')).2) := by
  obtain ⟨ms, q, h⟩ : ∃ ms q, hsSplit s = (ms, q) := ⟨_, _, rfl⟩
  rw [h]
  induction ms generalizing s with
  | nil =>
    rcases hsSplit_inv s [] q h with ⟨_, rfl, _⟩ | ⟨m, ms', s1, h1, _⟩
    · simp
    · cases h1
  | cons m ms ih =>
    rcases hsSplit_inv s _ q h with ⟨h0, _⟩ | ⟨m', ms', s1, h1, h2, h3, h4, h5⟩
    · cases h0
    · cases h1
      subst h2
      have := ih s1 h3
      rw [List.append_assoc, hsSplit_cons h4, this]
      rfl

theorem hsSplit_flatten (s : Bytes) : (hsSplit s).1.flatten ++ (hsSplit s).2 = s := by
  obtain ⟨ms, q, h⟩ : ∃ ms q, hsSplit s = (ms, q) := ⟨_, _, rfl⟩
  rw [h]
  induction ms generalizing s with
  | nil =>
    rcases hsSplit_inv s [] q h with ⟨_, rfl, _⟩ | ⟨m, ms', s1, h1, _⟩
    · simp
    · cases h1
  | cons m ms ih =>
    rcases hsSplit_inv s _ q h with ⟨h0, _⟩ | ⟨m', ms', s1, h1, h2, h3, h4, h5⟩
    · cases h0
    · cases h1
      subst h2
      have := ih s1 h3
      simp at this ⊢
      rw [← this]

theorem hsSplit_rest_incomplete (s : Bytes) : Incomplete (hsSplit s).2 := by
  obtain ⟨ms, q, h⟩ : ∃ ms q, hsSplit s = (ms, q) := ⟨_, _, rfl⟩
  rw [h]
  induction ms generalizing s with
  | nil =>
    rcases hsSplit_inv s [] q h with ⟨_, rfl, hi⟩ | ⟨m, ms', s1, h1, _⟩
    · exact hi
    · cases h1
  | cons m ms ih =>
    rcases hsSplit_inv s _ q h with ⟨h0, _⟩ | ⟨m', ms', s1, h1, h2, h3, h4, h5⟩
    · cases h0
    · cases h1
      exact ih s1 h3

theorem Rel.incomplete {h : Handler} {p : Bytes} (r : Rel h p) : Incomplete p := by
  intro h4
  obtain ⟨_, _, h3, h5, _⟩ := r.dat h4
  omega

theorem prefix_lt {p rest m s : Bytes} (hi : Incomplete p) (he : p ++ rest = m ++ s)
    (hl : m.length = 4 + bodyLen m) (h4 : 4 ≤ m.length) : p.length < m.length := by
  rcases List.append_eq_append_iff.1 he with ⟨a, h1, _⟩ | ⟨a, h1, _⟩
  · by_cases ha : a = []
    · subst ha
      simp at h1
      subst h1
      have := hi h4
      omega
    · have : 0 < a.length := List.length_pos_iff.2 ha
      rw [h1]; simp; omega
  · have hi' := hi (by rw [h1]; simp; omega)
    rw [h1, bodyLen_append h4] at hi'
    simp at hi'
    omega

theorem hsSplit_nil : hsSplit [] = ([], []) := by
  unfold hsSplit; rfl

theorem rest_nil_of {p rest m s : Bytes} (he : p ++ rest = m ++ s) (hp : p.length < m.length) :
    rest ≠ [] := by
  intro h0
  subst h0
  have := congrArg List.length he
  simp at this
  omega

theorem tickets_cons_ticket {m : Bytes} {ms : List Bytes} (h : m.head? = some ticketType) :
    tickets (m :: ms) = m :: tickets ms := by
  simp [tickets, h]

theorem take_take_append (n : Nat) (x l : List Bytes) :
    (x.take n ++ l).take n = (x ++ l).take n := by
  rw [List.take_append, List.take_append, List.take_take, List.length_take]
  congr 1
  · congr 1; omega
  · congr 1; omega

theorem keep_step {h h' : Handler} {m : Bytes} {ms : List Bytes}
    (hm : m.head? = some ticketType) (hr : h'.retrieved = h.retrieved)
    (hs : stored h' = keep h [m]) (_ti : TInv h) : keep h' ms = keep h (m :: ms) := by
  unfold keep at *
  rw [hr, tickets_cons_ticket hm]
  by_cases hb : h.retrieved = true
  · simp [hb]
  · simp only [hb, Bool.false_eq_true, if_false] at hs ⊢
    rw [hs, tickets_cons_ticket hm, take_take_append]
    simp [tickets]

theorem keep_nil {h : Handler} (ti : TInv h) : keep h [] = stored h := by
  have hl := stored_length ti
  unfold keep
  rcases ti with ⟨a, b, c⟩ | ⟨a, ts, b, c, d⟩
  · simp [a, stored, b]
  · simp only [a, tickets, List.filter_nil, List.append_nil]
    exact List.take_of_length_le (by omega)

theorem mentions_cons {t : UInt8} {m q : Bytes} {ms : List Bytes} :
    mentionsType t (m :: ms) q = ((m.head? == some t) || mentionsType t ms q) := by
  simp [mentionsType]

theorem mentions_nil_nil (t : UInt8) : mentionsType t [] [] = false := rfl

theorem stored_eq {h h' : Handler} (h1 : h'.fullTickets = h.fullTickets) : stored h' = stored h := by
  simp [stored, h1]

theorem loop_verdict {h : Handler} {p rest : Bytes} {ms : List Bytes} {q : Bytes} {fuel : Nat}
    {ku tk : Bool} (r : Rel h p) (ti : TInv h) (hs : hsSplit (p ++ rest) = (ms, q))
    (hf : rest.length < fuel)
    (hp : p = [] ∨ p.head? = some ticketType ∨ p.head? = some updateType) :
    (verdict ms q = .accept → ∃ h',
      loop fuel h rest ku tk = .ok (h', .ok ⟨!q.isEmpty,
        ku || (!rest.isEmpty && mentionsType updateType ms q),
        (finalKeyUpdate ms).getD kInvalidKeyUpdateType,
        tk || (!rest.isEmpty && mentionsType ticketType ms q), h'.numFull⟩) ∧
      Rel h' q ∧ TInv h' ∧ h'.retrieved = h.retrieved ∧ stored h' = keep h ms) ∧
    (verdict ms q = .refuse → ∃ h', loop fuel h rest ku tk = .ok (h', .error .internal)) := by
  have k4 : kTicketType = ticketType := rfl
  have k24 : kKeyUpdateType = updateType := rfl
  induction ms generalizing h p rest fuel ku tk with
  | nil =>
    rcases hsSplit_inv _ _ _ hs with ⟨_, rfl, hi⟩ | ⟨m, ms', s1, h1, _⟩
    · by_cases hr : rest = []
      · subst hr
        simp only [List.append_nil] at hs hi ⊢
        refine ⟨fun _ => ⟨h, ?_, r, ti, rfl, (keep_nil ti).symm⟩, ?_⟩
        · obtain ⟨fuel, rfl⟩ : ∃ k, fuel = k + 1 := ⟨fuel - 1, by omega⟩
          simp [loop, r.expecting, finalKeyUpdate]
        · intro hv
          unfold verdict at hv
          rw [if_pos hp] at hv
          cases hv
      · obtain ⟨t, q', hq⟩ : ∃ t q', p ++ rest = t :: q' := by
          cases hpr : p ++ rest with
          | nil => simp at hpr; exact absurd hpr.2 hr
          | cons t q' => exact ⟨t, q', rfl⟩
        by_cases hty : t = kTicketType ∨ t = kKeyUpdateType
        · obtain ⟨h', a1, a2, a3, a4, a5⟩ :=
            consume_part (ku := ku) (tk := tk) r hr hq hi hf hty
          constructor
          · intro _
            refine ⟨h', ?_, a2, ?_, a3, by rw [stored_eq a4]; exact (keep_nil ti).symm⟩
            · rw [a1, hq]
              simp [hr, mentionsType, finalKeyUpdate, k4, k24, Option.some_inj]
              constructor
              · congr 1
                by_cases h : t = updateType <;> simp [h, hr]
              · congr 1
                by_cases h : t = ticketType <;> simp [h, hr]
            · rcases ti with ⟨a, b, c⟩ | ⟨a, ts, b, c, d⟩
              · exact Or.inl ⟨by rw [a3, a], by rw [a4, b], by rw [a5, c]⟩
              · exact Or.inr ⟨by rw [a3, a], ts, by rw [a4, b], by rw [a5, c], d⟩
          · intro hv
            unfold verdict at hv
            rw [if_pos (by rw [hq]; right; simpa [k4, k24] using hty)] at hv
            cases hv
        · constructor
          · intro hv
            unfold verdict at hv
            rw [if_neg (by rw [hq]; simpa [k4, k24] using hty)] at hv
            cases hv
          · intro _
            exact (refuse_type r hr hq hf (fun h => hty (Or.inl h))
              (fun h => hty (Or.inr h))).imp fun _ h => h.1
    · cases h1
  | cons m ms ih =>
    rcases hsSplit_inv _ _ _ hs with ⟨h0, _⟩ | ⟨m', ms', s1, h1, h2, h3, h4, h5⟩
    · cases h0
    · cases h1
      have hpm := prefix_lt r.incomplete h2 h4 h5
      have hr := rest_nil_of h2 hpm
      have hre : rest.isEmpty = false := by simpa using hr
      obtain ⟨t, m', rfl⟩ : ∃ t m', m = t :: m' := by
        cases m with
        | nil => simp at h5
        | cons t m' => exact ⟨t, m', rfl⟩
      by_cases ht4 : t = ticketType
      · subst ht4
        by_cases hl : (ticketType :: m').length = 4
        · simp [verdict, hl]
        · obtain ⟨h1, fuel1, b1, b2, b3, b4, b5, b6⟩ :=
            consume_ticket (ku := ku) (tk := tk) r ti ⟨rfl, h4, by omega⟩ h2 hpm hf
          have hv : verdict ((ticketType :: m') :: ms) q = verdict ms q := by
            rw [verdict, if_pos (by simp), if_neg hl]
          obtain ⟨i1, i2⟩ := ih (ku := ku) (tk := true) b3 b4 (by simpa using h3) b2 (Or.inl rfl)
          rw [hv]
          constructor
          · intro hv
            obtain ⟨h', c1, c2, c3, c4, c5⟩ := i1 hv
            refine ⟨h', ?_, c2, c3, by rw [c4, b5],
              by rw [c5]; exact keep_step (by rfl) b5 b6 ti⟩
            rw [b1, c1]
            have hfin : finalKeyUpdate ((ticketType :: m') :: ms) = finalKeyUpdate ms := by
              unfold finalKeyUpdate
              cases ms with
              | nil => simp [ticketType, updateType]
              | cons => simp [List.getLast?_cons_cons]
            rw [hfin, mentions_cons, mentions_cons, hre]
            by_cases hs0 : s1 = []
            · subst hs0
              rw [hsSplit_nil] at h3
              cases h3
              simp [mentionsType, ticketType, updateType]
            · have hse : s1.isEmpty = false := by simpa using hs0
              simp [hse, ticketType, updateType]
          · intro hv
            obtain ⟨h', c1⟩ := i2 hv
            exact ⟨h', by rw [b1, c1]⟩
      · by_cases ht24 : t = updateType
        · subst ht24
          by_cases hl : (updateType :: m').length = 4
          · simp [verdict, hl, ht4]
          · by_cases hend : s1 = []
            · subst hend
              rw [hsSplit_nil] at h3
              cases h3
              obtain ⟨h', b1, b2, b3, b4, b5⟩ :=
                consume_keyUpdate (ku := ku) (tk := tk) r ti ⟨rfl, h4, by omega⟩
                  (by simpa using h2) hpm hf
              constructor
              · intro _
                refine ⟨h', ?_, b2, b3, b4, ?_⟩
                · rw [b1]
                  simp [hr, mentionsType, finalKeyUpdate, ticketType, updateType]
                · rw [stored_eq b5, ← keep_nil ti]
                  unfold keep tickets
                  simp [ticketType, updateType]
              · intro hv
                rw [verdict, if_neg (by simpa using ht4), if_pos (by simp), if_neg hl,
                  if_pos ⟨rfl, rfl⟩] at hv
                cases hv
            · obtain ⟨h', b1, _⟩ := refuse_keyUpdate (ku := ku) (tk := tk) r ⟨rfl, h4, by omega⟩ h2
                hend hpm hf
              constructor
              · intro hv
                exfalso
                rw [verdict, if_neg (by simpa using ht4), if_pos (by simp), if_neg hl, if_neg] at hv
                · cases hv
                · rintro ⟨rfl, rfl⟩
                  have := hsSplit_flatten s1
                  rw [h3] at this
                  exact hend (by simpa using this.symm)
              · intro _
                exact ⟨h', b1⟩
        · constructor
          · intro hv
            rw [verdict, if_neg (by simpa using ht4), if_neg (by simpa using ht24)] at hv
            cases hv
          · intro _
            exact (refuse_type r hr (by rw [h2]; rfl) hf ht4 ht24).imp fun _ h => h.1

end S2A.Handler
