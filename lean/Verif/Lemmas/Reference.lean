import Verif.Lemmas.Reader
import Verif.Lemmas.FrameReach
import Verif.Lemmas.AeadFault
import Verif.Spec.Reference
/-
A crypter behaves as the machine of `Spec/Reference.lean`.
-/
namespace S2A.Handler
open Spec (Ear Kind Said ticketType updateType hsSplit bodyLength missing len24)
open HalfConn (exec_bind_eq_ok)

/-- The kind of a message by its type. -/
def kindOf (t : UInt8) : Kind :=
  if t = kTicketType then .ticket else if t = kKeyUpdateType then .update else .other

/-- The state of the handler is the one described. -/
def Hears (h : Handler) : Ear → Prop
  | .inside p => Rel h p ∧ (p = [] ∨ p.head? = some ticketType ∨ p.head? = some updateType)
  | .foreign p => Rel h p ∧ ∃ t q, p = t :: q ∧ t ≠ kTicketType ∧ t ≠ kKeyUpdateType
  | .stale k n => ∃ t, Stuck h t ∧ h.hdrExp + n = 4 ∧ kindOf t = k

/-- The handler has stored `old` and then the tickets `ts`. -/
structure Keeps (r0 : Bool) (old ts : List Bytes) (h : Handler) : Prop where
  tinv : TInv h
  retrieved : h.retrieved = r0
  stored : stored h = if r0 then [] else (old ++ ts).take 5

theorem Keeps.same {r0 old ts h h'} (k : Keeps r0 old ts h) (s : Same h h') :
    Keeps r0 old ts h' :=
  ⟨s.tinv k.tinv, s.2.2.trans k.retrieved, (stored_eq s.1).trans k.stored⟩

/-- The result of processing is the one described. -/
def Follows (r0 : Bool) (old : List Bytes) (o : Option (Ear × Said))
    (x : Exec (Handler × Except StatusCode Result)) : Prop :=
  match o with
  | none => x = .error .negativeShift
  | some (e, s) => ∃ h' res, x = .ok (h', res) ∧ Hears h' e ∧ Keeps r0 old s.tickets h' ∧
      (if s.accepted then ∃ kut, res = .ok ⟨e.busy, s.update, kut, s.ticket, h'.numFull⟩
        else res = .error .internal)

theorem Stuck.expecting {h : Handler} {t : UInt8} (s : Stuck h t) : h.expectingMore = true := by
  have := s.type
  unfold messageType at this
  unfold expectingMore
  split at this
  · next hx => rw [hx]; rfl
  · cases this

theorem Hears.busy {h : Handler} {e : Ear} (k : Hears h e) : h.expectingMore = e.busy := by
  cases e with
  | inside p => exact k.1.expecting
  | foreign p =>
    obtain ⟨k1, t, q, rfl, _⟩ := k
    exact k1.expecting
  | stale kind n =>
    obtain ⟨t, k1, _⟩ := k
    exact k1.expecting

/-- The end of the loop. -/
theorem loop_nil {h : Handler} {fuel : Nat} {ku tk : Bool} (hf : 0 < fuel) :
    loop fuel h [] ku tk =
      .ok (h, .ok ⟨h.expectingMore, ku, kInvalidKeyUpdateType, tk, h.numFull⟩) := by
  obtain ⟨fuel, rfl⟩ : ∃ k, fuel = k + 1 := ⟨fuel - 1, by omega⟩
  rw [loop]
  rfl

/-- A message that was not put away, and more bytes. -/
theorem ear_wait {h : Handler} {t : UInt8} {n : Nat} {rest : Bytes} {fuel : Nat} {s : Said}
    {r0 : Bool} {old : List Bytes} (hs : Stuck h t) (hk : Keeps r0 old s.tickets h)
    (hn : h.hdrExp + n = 4) (hfu : rest.length < fuel) (ha : s.accepted = true) :
    Follows r0 old (Ear.wait (kindOf t) n rest s) (loop fuel h rest s.update s.ticket) := by
  unfold Ear.wait
  by_cases hr : rest = []
  · subst hr
    rw [if_pos rfl]
    refine ⟨h, _, loop_nil (by omega), ⟨t, hs, hn, rfl⟩, hk, ?_⟩
    rw [if_pos ha, hs.expecting]
    exact ⟨_, rfl⟩
  · obtain ⟨fuel, rfl⟩ : ∃ k, fuel = k + 1 := ⟨fuel - 1, by omega⟩
    rw [if_neg hr]
    have hlen : 0 < rest.length := List.length_pos_iff.2 hr
    by_cases hl : n + rest.length < 4
    · rw [if_pos hl]
      have hread : h.readFragment rest = .ok ({ h with
          fragments := h.fragments ++ [rest],
          hdrExp := h.hdrExp - rest.length }, [], false) := by
        rw [readFragment, if_pos hs.hdr, if_neg (by omega), store_hdr hs.hdr]
        rfl
      obtain ⟨pre, post, c1, c2⟩ := hs.cut
      have hs' : Stuck ({ h with
          fragments := h.fragments ++ [rest],
          hdrExp := h.hdrExp - rest.length } : Handler) t := by
        refine ⟨messageType_append (l := [rest]) hs.type rfl, ?_, hs.hdr, ?_, ?_, pre,
          post ++ [rest], by simp [c1], c2⟩
        · intro f hf
          rcases List.mem_append.1 hf with hf | hf
          · exact hs.ne f hf
          · simp at hf; subst hf; exact hr
        · show 0 < h.hdrExp - rest.length
          omega
        · show h.hdrExp - rest.length ≤ 4
          have := hs.le; omega
      have hh : Hears ({ h with
          fragments := h.fragments ++ [rest],
          hdrExp := h.hdrExp - rest.length } : Handler) (.stale (kindOf t) (n + rest.length)) :=
        ⟨t, hs', by show h.hdrExp - rest.length + _ = 4; omega, rfl⟩
      have hk' : Keeps r0 old s.tickets ({ h with
          fragments := h.fragments ++ [rest],
          hdrExp := h.hdrExp - rest.length } : Handler) := hk.same ⟨rfl, rfl, rfl⟩
      rw [loop_partial hr hread hs'.type]
      by_cases h4 : t = kTicketType
      · have hkind : kindOf t = .ticket := by rw [kindOf, if_pos h4]
        rw [if_neg (by rw [h4]; decide), if_pos h4]
        rw [hkind] at hh ⊢
        refine ⟨_, _, loop_nil (by omega), hh, hk', ?_⟩
        simp only [ha, if_true]
        exact ⟨_, by rw [hs'.expecting]; rfl⟩
      · by_cases h24 : t = kKeyUpdateType
        · have hkind : kindOf t = .update := by rw [kindOf, if_neg h4, if_pos h24]
          rw [if_pos h24]
          rw [hkind] at hh ⊢
          refine ⟨_, _, loop_nil (by omega), hh, hk', ?_⟩
          simp only [ha, if_true]
          exact ⟨_, by rw [hs'.expecting]; rfl⟩
        · have hkind : kindOf t = .other := by rw [kindOf, if_neg h4, if_neg h24]
          rw [if_neg h24, if_neg h4]
          rw [hkind] at hh ⊢
          exact ⟨_, _, rfl, hh, hk', by simp⟩
    · rw [if_neg hl]
      have hp := hs.pos
      show _ = _
      rw [loop, if_neg (by simpa using hr), readFragment, if_pos hs.hdr, if_pos (by omega)]
      simp only [store_hdr hs.hdr, exec_bind_ok]
      have : ({ h with
          fragments := h.fragments ++ [rest.take h.hdrExp],
          hdrExp := kHeaderLen } : Handler).dataSizeFromHeader = .error .negativeShift := by
        unfold dataSizeFromHeader
        refine stuck_size hs ?_
        intro h0
        have := congrArg List.length h0
        simp only [List.length_take, List.length_nil] at this
        omega
      rw [this]
      rfl

/-- Some bytes of a foreign message. -/
theorem ear_skip {h : Handler} {p rest : Bytes} {t : UInt8} {q : Bytes} {fuel : Nat}
    {ku tk : Bool} {s : Said} {r0 : Bool} {old : List Bytes} (r : Rel h p)
    (hk : Keeps r0 old s.tickets h) (hr : rest ≠ []) (hq : p ++ rest = t :: q)
    (h4 : t ≠ kTicketType) (h24 : t ≠ kKeyUpdateType) (hf : rest.length < fuel) :
    Follows r0 old (some (.skip p rest, { s with accepted := false }))
      (loop fuel h rest ku tk) := by
  obtain ⟨fuel, rfl⟩ : ∃ k, fuel = k + 1 := ⟨fuel - 1, by omega⟩
  have hlen : 0 < rest.length := List.length_pos_iff.2 hr
  have hkd : kindOf t = .other := by rw [kindOf, if_neg h4, if_neg h24]
  unfold Ear.skip missing
  simp only [bodyLength_eq]
  by_cases hl : (p ++ rest).length < 4
  · obtain ⟨h', a, b, c, d, e⟩ := read_hdr_part r hr hl
    simp only [List.length_append] at hl
    have hb := b
    rw [hq] at hb
    rw [if_pos (show p.length < 4 by omega), List.take_of_length_le (by omega),
      if_neg (by rw [List.length_append]; omega)]
    exact ⟨h', _, loop_otherDone hr a hb.type h4 h24, ⟨b, t, q, hq, h4, h24⟩,
      hk.same ⟨c, d, e⟩, by simp⟩
  · by_cases hp4 : 4 ≤ p.length
    · rw [if_neg (show ¬ p.length < 4 by omega)]
      by_cases hx : (p ++ rest).length < 4 + bodyLen p
      · obtain ⟨h', a, b, c, d, e⟩ := read_dat_part r hp4 hr hx
        have hb := b
        rw [hq] at hb
        rw [List.length_append] at hx
        rw [List.take_of_length_le (by omega), if_neg (by
          rw [bodyLen_append hp4, List.length_append]; omega)]
        exact ⟨h', _, loop_otherDone hr a hb.type h4 h24, ⟨b, t, q, hq, h4, h24⟩,
          hk.same ⟨c, d, e⟩, by simp⟩
      · obtain ⟨t', p', rfl⟩ : ∃ t q, p = t :: q := by
          cases p with
          | nil => simp at hp4
          | cons t q => exact ⟨t, q, rfl⟩
        have ht : t' = t := by simpa using congrArg List.head? hq
        subst ht
        have hd := (r.dat hp4).2.2.2.1
        rw [List.length_append] at hx
        have hde : 4 + bodyLen (t' :: p') - (t' :: p').length = h.dataExp := by omega
        have hbl : (t' :: p' ++ rest.take h.dataExp).length = 4 + bodyLen (t' :: p') := by
          simp only [List.length_append, List.length_take] at hx ⊢; omega
        obtain ⟨h', a, b, f1, _, c, d, e, g1, g2, g3⟩ :=
          read_dat_full (rest := rest) (body := rest.take h.dataExp)
          (rest' := rest.drop h.dataExp) r hp4 (by simp) hbl
        rw [hde, if_pos ⟨by rw [hbl]; omega, by rw [bodyLen_append hp4]; exact hbl⟩]
        exact ⟨h', _, loop_otherDone hr a b h4 h24,
          ⟨t', ⟨b, f1, g1, by omega, by omega, g3⟩, by omega, hkd⟩, hk.same ⟨c, d, e⟩, by simp⟩
    · obtain ⟨a, b, c, body, hb⟩ : ∃ a b c body, p ++ rest = t :: a :: b :: c :: body := by
        rw [hq]
        have hl' : (p ++ rest).length = q.length + 1 := by rw [hq]; simp
        match q, hl' with
        | a :: b :: c :: body, _ => exact ⟨a, b, c, body, rfl⟩
        | [], hl' => simp at hl' hl; omega
        | [_], hl' => simp at hl' hl; omega
        | [_, _], hl' => simp at hl' hl; omega
      have htake : p ++ rest.take (4 - p.length) = [t, a, b, c] := by
        have : (p ++ rest).take 4 = [t, a, b, c] := by rw [hb]; simp
        rwa [List.take_append, List.take_of_length_le (by omega)] at this
      rw [if_pos (show p.length < 4 by omega), htake]
      by_cases hz : 0 < len24 a b c
      · obtain ⟨h1, e1, e2, c, d, e⟩ := read_hdr_full (rest' := body) r (by omega) hb hz
        rw [if_neg (by simp [bodyLen]; omega)]
        exact ⟨h1, _, loop_otherDone hr e1 e2.type h4 h24, ⟨e2, t, _, rfl, h4, h24⟩,
          hk.same ⟨c, d, e⟩, by simp⟩
      · obtain ⟨h1, e1, e2, c, d, e, g1, g2, g3, g4⟩ :=
          read_hdr_zero (rest' := body) r (by omega) hb (by omega)
        rw [if_pos (by simp [bodyLen]; omega)]
        exact ⟨h1, _, loop_otherDone hr e1 e2 h4 h24,
          ⟨t, ⟨e2, g3, g1, by omega, by omega, h1.fragments, [], by simp, g4⟩, by omega, hkd⟩,
          hk.same ⟨c, d, e⟩, by simp⟩

theorem ear_skip_nil {m s : Bytes} (h : 4 ≤ m.length) :
    Ear.skip [] (m ++ s) = Ear.skip [] m := by
  unfold Ear.skip
  rw [show missing [] = 4 from rfl, take4_append h]

theorem keeps_ticket {r0 : Bool} {old ts : List Bytes} {h h' : Handler} {m : Bytes}
    (k : Keeps r0 old ts h) (ti : TInv h') (hr : h'.retrieved = h.retrieved)
    (hm : m.head? = some ticketType) (hs : stored h' = keep h [m]) :
    Keeps r0 old (ts ++ [m]) h' := by
  refine ⟨ti, hr.trans k.retrieved, ?_⟩
  rw [hs, keep, k.retrieved, k.stored, tickets_cons_ticket hm]
  cases r0 with
  | true => rfl
  | false =>
    simp only [Bool.false_eq_true, if_false]
    rw [show Spec.tickets [] = [] from rfl, take_take_append, List.append_assoc]

/-- In order so far. -/
theorem ear_read {h : Handler} {p rest : Bytes} {ms : List Bytes} {q : Bytes} {fuel : Nat}
    {s : Said} {r0 : Bool} {old : List Bytes} (r : Rel h p) (hk : Keeps r0 old s.tickets h)
    (hs : hsSplit (p ++ rest) = (ms, q)) (hne : p = [] ∨ rest ≠ [])
    (hp : p = [] ∨ p.head? = some ticketType ∨ p.head? = some updateType)
    (hf : rest.length < fuel) (ha : s.accepted = true) :
    Follows r0 old (Ear.read ms q s) (loop fuel h rest s.update s.ticket) := by
  have k4 : kTicketType = ticketType := rfl
  have k24 : kKeyUpdateType = updateType := rfl
  have pnil : ∀ t s, p ++ rest = t :: s → ¬ (t = kTicketType ∨ t = kKeyUpdateType) → p = [] := by
    intro t s he ht
    cases p with
    | nil => rfl
    | cons t' p =>
      have : t' = t := by simpa using congrArg List.head? he
      subst this
      exact absurd (by simpa [k4, k24] using hp) ht
  induction ms generalizing h p rest fuel s with
  | nil =>
    rcases hsSplit_inv _ _ _ hs with ⟨_, rfl, hi⟩ | ⟨m, ms', s1, h1, _⟩
    · unfold Ear.read
      by_cases hr : rest = []
      · subst hr
        obtain rfl : p = [] := hne.resolve_right (by simp)
        rw [if_pos (show ([] : Bytes) ++ [] = [] from rfl)]
        refine ⟨h, _, loop_nil (by omega), ⟨r, Or.inl rfl⟩, hk, ?_⟩
        rw [if_pos ha, r.expecting]
        exact ⟨_, rfl⟩
      · obtain ⟨t, q', hq⟩ : ∃ t q', p ++ rest = t :: q' := by
          cases hpr : p ++ rest with
          | nil => simp at hpr; exact absurd hpr.2 hr
          | cons t q' => exact ⟨t, q', rfl⟩
        rw [if_neg (by rw [hq]; simp)]
        by_cases hty : t = kTicketType ∨ t = kKeyUpdateType
        · have hh : p ++ rest = [] ∨ (p ++ rest).head? = some ticketType ∨
              (p ++ rest).head? = some updateType := by
            rw [hq]; right; simpa [k4, k24] using hty
          obtain ⟨h', a1, a2, a3, a4, a5⟩ :=
            consume_part (ku := s.update) (tk := s.ticket) r hr hq hi hf hty
          have hb : (Ear.inside (p ++ rest)).busy = true := by rw [hq]; rfl
          rcases hty with rfl | rfl
          · rw [if_pos (show (p ++ rest).head? = some ticketType by rw [hq]; rfl)]
            refine ⟨h', _, a1, ⟨a2, hh⟩, hk.same ⟨a4, a5, a3⟩, ?_⟩
            simp only [ha, if_true, hb]
            exact ⟨kInvalidKeyUpdateType, by simp [kTicketType, kKeyUpdateType]⟩
          · rw [if_neg (show ¬ (p ++ rest).head? = some ticketType by
              rw [hq]; exact show some kKeyUpdateType ≠ some ticketType by decide),
              if_pos (show (p ++ rest).head? = some updateType by rw [hq]; rfl)]
            refine ⟨h', _, a1, ⟨a2, hh⟩, hk.same ⟨a4, a5, a3⟩, ?_⟩
            simp only [ha, if_true, hb]
            exact ⟨kInvalidKeyUpdateType, by simp [kTicketType, kKeyUpdateType]⟩
        · have hp0 := pnil t q' hq hty
          subst hp0
          rw [if_neg (by rw [hq]; intro h; exact hty (Or.inl (by simpa [k4] using h))),
            if_neg (by rw [hq]; intro h; exact hty (Or.inr (by simpa [k24] using h)))]
          exact ear_skip r hk hr hq (fun h => hty (Or.inl h)) (fun h => hty (Or.inr h)) hf
    · cases h1
  | cons m ms ih =>
    rcases hsSplit_inv _ _ _ hs with ⟨h0, _⟩ | ⟨m', ms', s1, h1, h2, h3, h4, h5⟩
    · cases h0
    · cases h1
      have hpm := prefix_lt r.incomplete h2 h4 h5
      have hr := rest_nil_of h2 hpm
      obtain ⟨t, m', rfl⟩ : ∃ t m', m = t :: m' := by
        cases m with
        | nil => simp at h5
        | cons t m' => exact ⟨t, m', rfl⟩
      have hfl : ms.flatten ++ q = s1 := by
        have := hsSplit_flatten s1
        rw [h3] at this
        exact this
      -- an empty body
      have empty : ∀ (ht : t = kTicketType ∨ t = kKeyUpdateType) (hl4 : (t :: m').length = 4),
          ∃ g fuel', loop fuel h rest s.update s.ticket =
            loop fuel' g s1 (s.update || decide (t = kKeyUpdateType))
              (s.ticket || decide (t = kTicketType)) ∧
            Stuck g t ∧ Same h g ∧ g.hdrExp = 4 ∧ s1.length < fuel' := by
        intro ht hl4
        match m', hl4 with
        | [x, y, z], hl4 =>
          obtain ⟨fuel, rfl⟩ : ∃ k, fuel = k + 1 := ⟨fuel - 1, by omega⟩
          have hz : len24 x y z = 0 := by
            simp [bodyLen] at h4; omega
          have hp4 : p.length < 4 := by simpa using hpm
          obtain ⟨g, e1, e2, e3, e4, e5, e6, e7, e8, e9⟩ :=
            read_hdr_zero (rest' := s1) r hp4 (by rw [h2]; rfl) hz
          have hst : Stuck g t := ⟨e2, e8, e6, by omega, by omega, g.fragments, [], by simp, e9⟩
          have hlen := congrArg List.length h2
          simp only [List.length_append, List.length_cons, List.length_nil] at hlen
          refine ⟨g, fuel, ?_, hst, ⟨e3, e4, e5⟩, by omega, by omega⟩
          rw [loop_partial hr e1 e2]
          rcases ht with rfl | rfl
          · rw [if_neg (by decide), if_pos rfl]
            simp [kTicketType, kKeyUpdateType]
          · rw [if_pos rfl]
            simp [kTicketType, kKeyUpdateType]
      unfold Ear.read
      by_cases ht4 : t = kTicketType
      · subst ht4
        rw [if_pos (show (kTicketType :: m').head? = some ticketType from rfl)]
        by_cases hl4 : (kTicketType :: m').length = 4
        · rw [if_pos hl4, hfl]
          obtain ⟨g, fuel', e1, e2, e3, e4, e5⟩ := empty (Or.inl rfl) hl4
          rw [e1]
          have := ear_wait (s := { s with ticket := true }) (n := 0) e2 (hk.same e3)
            (by omega) e5 ha
          simpa [kindOf, kTicketType, kKeyUpdateType] using this
        · rw [if_neg hl4]
          obtain ⟨h1, fuel1, b1, b2, b3, b4, b5, b6⟩ :=
            consume_ticket (ku := s.update) (tk := s.ticket) r hk.tinv ⟨rfl, h4, by omega⟩ h2 hpm hf
          rw [b1]
          exact ih (s := { s with ticket := true, tickets := s.tickets ++ [kTicketType :: m'] })
            b3 (keeps_ticket hk b4 b5 rfl b6) (by simpa using h3) (Or.inl rfl) (Or.inl rfl) b2
            ha (fun _ _ _ _ => rfl)
      · rw [if_neg (show ¬ (t :: m').head? = some ticketType by simpa [k4] using ht4)]
        by_cases ht24 : t = kKeyUpdateType
        · subst ht24
          rw [if_pos (show (kKeyUpdateType :: m').head? = some updateType from rfl)]
          by_cases hl4 : (kKeyUpdateType :: m').length = 4
          · rw [if_pos hl4, hfl]
            obtain ⟨g, fuel', e1, e2, e3, e4, e5⟩ := empty (Or.inr rfl) hl4
            rw [e1]
            have := ear_wait (s := { s with update := true }) (n := 0) e2 (hk.same e3)
              (by omega) e5 ha
            simpa [kindOf, kTicketType, kKeyUpdateType] using this
          · rw [if_neg hl4]
            by_cases hend : s1 = []
            · subst hend
              rw [hsSplit_nil] at h3
              cases h3
              rw [if_pos ⟨rfl, rfl⟩]
              obtain ⟨h', b1, b2, b3, b4, b5⟩ :=
                consume_keyUpdate (ku := s.update) (tk := s.ticket) r hk.tinv
                  ⟨rfl, h4, by omega⟩ (by simpa using h2) hpm hf
              refine ⟨h', _, b1, ⟨b2, Or.inl rfl⟩,
                ⟨b3, b4.trans hk.retrieved, (stored_eq b5).trans hk.stored⟩, ?_⟩
              simp only [ha, if_true]
              exact ⟨_, rfl⟩
            · rw [if_neg (by
                rintro ⟨rfl, rfl⟩
                exact hend (by simpa using hfl.symm))]
              obtain ⟨g, b1, b2, b3, b4⟩ := refuse_keyUpdate4 (ku := s.update) (tk := s.ticket) r
                ⟨rfl, h4, by omega⟩ h2 hend hpm hf
              exact ⟨g, _, b1, ⟨_, b2, by omega, by simp [kindOf, kTicketType, kKeyUpdateType]⟩,
                hk.same b3, by simp⟩
        · have hty : ¬ (t = kTicketType ∨ t = kKeyUpdateType) := by
            rintro (h | h)
            · exact ht4 h
            · exact ht24 h
          have hp0 := pnil t _ (by rw [h2]; rfl) hty
          subst hp0
          rw [if_neg (show ¬ (t :: m').head? = some updateType by simpa [k24] using ht24)]
          have := ear_skip (ku := s.update) (tk := s.ticket) r hk hr (by rw [h2]; rfl) ht4 ht24 hf
          simp only [List.nil_append] at h2
          subst h2
          rw [ear_skip_nil h5] at this
          exact this

/-- Every record, in every situation. -/
theorem Hears.process {h : Handler} {e : Ear} {old : List Bytes} (k : Hears h e)
    (hk : Keeps h.retrieved old [] h) (record : Bytes) :
    Follows h.retrieved old (e.hear record) (h.process record) := by
  unfold Handler.process Ear.hear
  by_cases hr : record = []
  · subst hr
    rw [if_pos rfl]
    exact ⟨h, _, loop_nil (by omega), k, hk, by rw [k.busy]; exact ⟨_, rfl⟩⟩
  rw [if_neg hr]
  cases e with
  | inside got =>
    exact ear_read (s := {}) k.1 hk rfl (Or.inr hr) k.2 (Nat.lt_succ_self _) rfl
  | foreign got =>
    obtain ⟨k1, t, q, rfl, k2, k3⟩ := k
    exact ear_skip (s := {}) k1 hk hr rfl k2 k3 (Nat.lt_succ_self _)
  | stale kind n =>
    obtain ⟨t, k1, k2, rfl⟩ := k
    exact ear_wait (s := {}) k1 hk k2 (Nat.lt_succ_self _) rfl

end S2A.Handler

namespace S2A.Record
open HalfConn (exec_bind_eq_ok At updateKey_spec)
open Handler (Hears Keeps TInv stored kindOf)
open Spec (Machine Ear Stage)

/-- The phase of the code for a stage. -/
def phaseOf : Stage → Phase
  | .fresh => .notReceived
  | .collecting => .receiving
  | .settled => .done

theorem phaseOf_done {s : Stage} : phaseOf s = .done ↔ s = .settled := by cases s <;> simp [phaseOf]

theorem phaseOf_receiving {s : Stage} : phaseOf s = .receiving ↔ s = .collecting := by
  cases s <;> simp [phaseOf]

/-- A half connection that is dead, or at a position of its direction. -/
structure Side (L : Lib) (hc : HalfConn) (d : Spec.Dir) (b : Bool) : Prop where
  good : HalfConn.Good d.suite hc
  dead : b = true → hc.alwaysFail = true
  live : b = false → At L hc d

theorem Side.of {L : Lib} {hc d} (h : At L hc d) : Side L hc d false :=
  ⟨h.good, (fun h => by cases h), fun _ => h⟩

theorem Side.blocked {L : Lib} {hc d dead} (h : Side L hc d dead) :
    HalfConn.blocked hc = true ↔ dead = true ∨ d.seq = 2 ^ 64 ∧ dead = false := by
  cases dead with
  | true => simp [HalfConn.blocked, h.dead rfl]
  | false => simp [(h.live rfl).blocked]

theorem Side.unblocked {L : Lib} {hc d dead} (h : Side L hc d dead)
    (hb : HalfConn.blocked hc = false) : dead = false ∧ At L hc d ∧ d.seq < 2 ^ 64 := by
  cases dead with
  | true => simp [HalfConn.blocked, h.dead rfl] at hb
  | false => exact ⟨rfl, h.live rfl, (h.live rfl).lt hb⟩

theorem Side.updated {L : Lib} {hc d dead} (h : Side L hc d dead) :
    Side L (HalfConn.updated L d.suite hc) (d.update L) dead := by
  obtain ⟨hc', st, u1, u2, u3, u4, u5⟩ := updateKey_spec L .none d.suite hc h.good
  obtain rfl := u3 (u5 rfl)
  exact ⟨u2, fun hd => h.dead hd, fun hd => (h.live hd).updated⟩

/-- The crypter is in the state that the machine says. -/
structure Acts (L : Lib) (c : Conn) (m : Machine) : Prop where
  out : Side L c.outC m.out m.outDead
  inp : Side L c.inC m.inp m.inDead
  ear : Hears c.handler m.ear
  tinv : TInv c.handler
  kept : m.stage ≠ .settled → c.handler.retrieved = false ∧ stored c.handler = m.kept
  stage : c.phase = phaseOf m.stage
  waiting : c.expecting = m.waiting
  closed : c.closeNotify = m.closed
  sent : c.sent.map (·.tickets) = m.sent

/-- The outcome of a call is the one the machine says. -/
def Goes (L : Lib) (o : Option (Machine × Code × Bytes)) (x : Exec (Conn × Result)) : Prop :=
  match o with
  | none => x = .error .negativeShift
  | some (m, code, bytes) => ∃ c r, x = .ok (c, r) ∧ r.code = code ∧
      r.out.bytes.take r.written = bytes ∧ Acts L c m

/-- The outcome of a call is the one the machine says, or (if `bad`) one of those in `lapse`. -/
def GoesOr (L : Lib) (o : Option (Machine × Code × Bytes)) (bad : Prop)
    (lapse : Machine → Code → Prop) (x : Exec (Conn × Result)) : Prop :=
  Goes L o x ∨ (bad ∧ ∃ c r m, x = .ok (c, r) ∧ lapse m r.code ∧
    r.out.bytes.take r.written = [] ∧ Acts L c m)

theorem hears_inTicket {h : Handler} {e : Ear} (k : Hears h e) :
    (h.expectingMore = false ∧ e.inTicket = false) ∨
    (h.expectingMore = true ∧ ∃ t, h.messageType = .ok t ∧
      e.inTicket = decide (t = Handler.kTicketType)) := by
  rw [k.busy]
  cases e with
  | inside got =>
    cases got with
    | nil => exact Or.inl ⟨rfl, rfl⟩
    | cons t q =>
      refine Or.inr ⟨rfl, t, k.1.type, ?_⟩
      by_cases ht : t = Handler.kTicketType
      · subst ht; rfl
      · simp [Ear.inTicket, ht, Spec.ticketType]
  | foreign got =>
    obtain ⟨k1, t, q, rfl, k2, k3⟩ := k
    exact Or.inr ⟨rfl, t, k1.type, by simp [Ear.inTicket, k2]⟩
  | stale kind n =>
    obtain ⟨t, k1, k2, rfl⟩ := k
    refine Or.inr ⟨rfl, t, k1.type, ?_⟩
    simp only [Ear.inTicket, kindOf]
    by_cases h4 : t = Handler.kTicketType
    · rw [if_pos h4]; simp [h4]
    · rw [if_neg h4]
      by_cases h24 : t = Handler.kKeyUpdateType
      · rw [if_pos h24]; simp [h24, Handler.kTicketType, Handler.kKeyUpdateType]
      · rw [if_neg h24]; simp [h4]

theorem getStored_eq {h : Handler} {e : Ear} {ts} (k : Hears h e) (hr : h.retrieved = false)
    (hf : h.fullTickets = some ts) :
    h.getStoredTickets = .ok (if e.inTicket then (h, .error .internal)
      else ({ h with retrieved := true, numFull := 0, fullTickets := none }, .ok ts)) := by
  unfold Handler.getStoredTickets
  rw [if_neg (by simp [hr])]
  rcases hears_inTicket k with ⟨h1, h2⟩ | ⟨h1, t, h2, h3⟩
  · simp [h1, h2, hf]
  · simp only [h1, if_true, h2, h3, exec_bind_ok, exec_pure, hf]
    by_cases ht : t = Handler.kTicketType <;> simp [ht]

theorem hears_retrieved {h : Handler} {e : Ear} (k : Hears h e) (hn : e.inTicket = false) :
    Hears { h with retrieved := true, numFull := 0, fullTickets := none } e := by
  cases e with
  | inside got =>
    refine ⟨rel_retrieved k.1 ?_, k.2⟩
    cases got with
    | nil =>
      obtain ⟨_, _, hf⟩ := k.1.hdr (by simp)
      unfold Handler.messageType
      split
      · next hx => rw [hx] at hf; simp at hf
      · simp
    | cons t q =>
      rw [k.1.type]
      intro h0
      injection h0 with h0
      subst h0
      simp [Ear.inTicket, Spec.ticketType] at hn
  | foreign got =>
    obtain ⟨k1, t, q, rfl, k2, k3⟩ := k
    refine ⟨rel_retrieved k1 ?_, t, q, rfl, k2, k3⟩
    rw [k1.type]
    intro h0
    injection h0 with h0
    exact k2 h0
  | stale kind n =>
    obtain ⟨t, k1, k2⟩ := k
    exact ⟨t, ⟨k1.type, k1.ne, k1.hdr, k1.pos, k1.le, k1.cut⟩, k2⟩

/-- Handing the tickets on. -/
theorem acts_settle {L : Lib} {c : Conn} {m : Machine} (a : Acts L c m)
    (hs : m.stage ≠ .settled) :
    ∃ c', retrieveAndSend c = .ok c' ∧ Acts L { c' with phase := .done } m.settle := by
  obtain ⟨k1, k2⟩ := a.kept hs
  rcases a.tinv with ⟨x, _⟩ | ⟨_, ts, x1, x2, x3⟩
  · rw [k1] at x; cases x
  unfold retrieveAndSend
  rw [getStored_eq a.ear k1 x1]
  by_cases ht : m.ear.inTicket = true
  · rw [if_pos ht]
    refine ⟨_, rfl, a.out, a.inp, a.ear, a.tinv, fun h => absurd rfl h, rfl, a.waiting, a.closed, ?_⟩
    simp only [Machine.settle, ht, if_true]
    exact a.sent
  · rw [if_neg ht]
    refine ⟨_, rfl, a.out, a.inp, hears_retrieved a.ear (eq_false_of_ne_true ht),
      Or.inl ⟨rfl, rfl, rfl⟩, fun h => absurd rfl h, rfl, a.waiting, a.closed, ?_⟩
    simp only [Machine.settle, ht, List.map_append, List.map_cons, List.map_nil, a.sent]
    rw [if_neg (by simp), ← k2]
    simp [stored, x1]

theorem handleTickets_done {c : Conn} {r} (hp : c.phase = .done) : handleTickets c r = .ok c := by
  unfold handleTickets
  rw [hp]

theorem handleTickets_live {c : Conn} {r} (hp : c.phase ≠ .done) :
    handleTickets c r =
      if r.containsTicket then
        if 5 ≤ r.numFull then do
          let c ← retrieveAndSend { c with phase := .receiving }
          .ok { c with expecting := false, phase := .done }
        else .ok { c with phase := .receiving }
      else .ok c := by
  unfold handleTickets
  cases hq : c.phase with
  | done => exact absurd hq hp
  | notReceived =>
    simp only
    cases r.containsTicket with
    | false => simp
    | true =>
      by_cases h5 : 5 ≤ r.numFull
      · simp [h5, Handler.kMaxTickets]
      · simp [h5, Handler.kMaxTickets]
  | receiving =>
    simp only
    cases r.containsTicket with
    | false => simp
    | true =>
      by_cases h5 : 5 ≤ r.numFull
      · simp [h5, Handler.kMaxTickets]
      · simp [h5, Handler.kMaxTickets]

/-- The tickets after an accepted record. -/
theorem acts_tickets {L : Lib} {c : Conn} {m : Machine} {ku tk : Bool} {kut ex}
    (a : Acts L c m) (hl : m.stage ≠ .settled → c.handler.numFull = m.kept.length) :
    ∃ c', handleTickets c ⟨ex, ku, kut, tk, c.handler.numFull⟩ = .ok c' ∧
      Acts L c' (if tk ∧ m.stage ≠ .settled then
        if 5 ≤ m.kept.length then { m.settle with waiting := false }
        else { m with stage := .collecting }
      else m) := by
  by_cases hs : m.stage = .settled
  · have hp : c.phase = .done := by rw [a.stage]; exact phaseOf_done.2 hs
    rw [handleTickets_done hp, if_neg (c := tk = true ∧ m.stage ≠ .settled) (by simp [hs])]
    exact ⟨c, rfl, a⟩
  · have hp : c.phase ≠ .done := by rw [a.stage]; exact fun h => hs (phaseOf_done.1 h)
    rw [handleTickets_live hp]
    simp only
    rw [hl hs]
    cases tk with
    | false => exact ⟨c, rfl, by simpa using a⟩
    | true =>
      rw [if_pos (c := true = true ∧ m.stage ≠ .settled) ⟨rfl, hs⟩, if_pos rfl]
      have a' : Acts L { c with phase := .receiving } { m with stage := .collecting } :=
        ⟨a.out, a.inp, a.ear, a.tinv, fun _ => a.kept hs, rfl, a.waiting, a.closed, a.sent⟩
      by_cases h5 : 5 ≤ m.kept.length
      · rw [if_pos h5, if_pos h5]
        obtain ⟨c', e1, e2⟩ := acts_settle a' (by simp)
        rw [e1]
        exact ⟨_, rfl, e2.out, e2.inp, e2.ear, e2.tinv, e2.kept, e2.stage, rfl, e2.closed, e2.sent⟩
      · rw [if_neg h5, if_neg h5]
        exact ⟨_, rfl, a'⟩

/-- A handshake record. -/
theorem acts_hear_or {L : Lib} {f : KeyFault} {c : Conn} {m : Machine} {call p tail content}
    (a : Acts L c m) (hlive : m.inDead = false)
    (h : Spec.unpad p = some (content, Spec.handshakeType)) :
    (Goes L (m.hear L content) (dispatch L f c call (p ++ tail) p.length) ∧
      ∀ e s, m.ear.hear content = some (e, s) → s.accepted = true → s.update = true →
        ∃ hc', c.inC.updateKey L f = .ok (hc', .ok)) ∨
    (f ≠ .none ∧ ∃ c' r m', dispatch L f c call (p ++ tail) p.length = .ok (c', r) ∧
      (r.code = .internalError ∧ m.poisoned content m') ∧ r.out.bytes.take r.written = [] ∧
      Acts L c' m') := by
  rw [dispatch_handshake L f c call p tail h]
  have hold : Keeps c.handler.retrieved (stored c.handler) [] c.handler := by
    refine ⟨a.tinv, rfl, ?_⟩
    rcases a.tinv with ⟨x1, x2, x3⟩ | ⟨x1, ts, x2, x3, x4⟩
    · rw [x1]; simp [stored, x2]
    · rw [x1]
      simp only [Bool.false_eq_true, if_false, List.append_nil]
      rw [List.take_of_length_le]
      simpa [stored, x2] using x4
  have hf := a.ear.process hold content
  unfold Machine.hear
  cases he : m.ear.hear content with
  | none =>
    rw [he] at hf
    have hf : c.handler.process content = .error .negativeShift := hf
    refine Or.inl ⟨?_, fun _ _ h => by cases h⟩
    show _ = _
    rw [hf]
    rfl
  | some y =>
    obtain ⟨e, s⟩ := y
    rw [he] at hf
    obtain ⟨h', res, e1, e2, e3, e4⟩ := hf
    rw [e1]
    simp only [exec_bind_ok]
    have hkept : m.stage ≠ .settled → h'.retrieved = false ∧
        stored h' = (m.kept ++ s.tickets).take 5 := by
      intro hs
      obtain ⟨k1, k2⟩ := a.kept hs
      have := e3.stored
      rw [k1, k2] at this
      exact ⟨e3.retrieved.trans k1, by simpa using this⟩
    cases hacc : s.accepted with
    | false =>
      rw [hacc] at e4
      have e4 : res = .error .internal := by simpa using e4
      subst e4
      refine Or.inl ⟨⟨_, _, rfl, rfl, rfl, a.out, a.inp, e2, e3.tinv, hkept, a.stage, a.waiting,
        a.closed, a.sent⟩, ?_⟩
      intro _ _ h h1
      cases h
      rw [hacc] at h1
      cases h1
    | true =>
      rw [hacc] at e4
      obtain ⟨kut, rfl⟩ : ∃ kut, res = .ok ⟨e.busy, s.update, kut, s.ticket, h'.numFull⟩ := by
        simpa using e4
      simp only [Bool.not_true, Bool.false_eq_true, if_false]
      -- the state before the tickets are looked at
      have fin : ∀ (j : HalfConn) (rk : Option StatusCode), Side L j (if s.update then m.inp.update L else m.inp) m.inDead →
          Goes L
            (if s.ticket ∧ m.stage ≠ .settled then
              if 5 ≤ ((m.kept ++ s.tickets).take 5).length then
                some ({ Machine.settle { m with ear := e, kept := (m.kept ++ s.tickets).take 5, waiting := e.busy, inp := if s.update then m.inp.update L else m.inp } with waiting := false }, .ok, [])
              else some ({ m with ear := e, kept := (m.kept ++ s.tickets).take 5, waiting := e.busy, inp := if s.update then m.inp.update L else m.inp, stage := .collecting }, .ok, [])
            else some ({ m with ear := e, kept := (m.kept ++ s.tickets).take 5, waiting := e.busy, inp := if s.update then m.inp.update L else m.inp }, .ok, []))
            (do
              let c ← handleTickets { c with handler := h', expecting := e.busy, inC := j }
                ⟨e.busy, s.update, kut, s.ticket, h'.numFull⟩
              .ok (c, ⟨.ok, 0, .buf (p ++ tail), call, rk, some p⟩)) := by
        intro j rk hj
        have a' : Acts L { c with handler := h', expecting := e.busy, inC := j }
            { m with ear := e, kept := (m.kept ++ s.tickets).take 5, waiting := e.busy, inp := if s.update then m.inp.update L else m.inp } :=
          ⟨a.out, hj, e2, e3.tinv, hkept, a.stage, rfl, a.closed, a.sent⟩
        obtain ⟨c', g1, g2⟩ := acts_tickets (ku := s.update) (tk := s.ticket) (kut := kut)
          (ex := e.busy) a' (by
            intro hs
            rw [← (hkept hs).2, Handler.stored_length e3.tinv])
        simp only at g1
        rw [g1, exec_bind_ok]
        simp only at g2
        by_cases h1 : s.ticket = true ∧ m.stage ≠ .settled
        · rw [if_pos h1] at g2 ⊢
          by_cases h5 : 5 ≤ ((m.kept ++ s.tickets).take 5).length
          · rw [if_pos h5] at g2 ⊢
            exact ⟨_, _, rfl, rfl, rfl, g2⟩
          · rw [if_neg h5] at g2 ⊢
            exact ⟨_, _, rfl, rfl, rfl, g2⟩
        · rw [if_neg h1] at g2 ⊢
          exact ⟨_, _, rfl, rfl, rfl, g2⟩
      unfold handleResult
      simp only
      cases hu : s.update with
      | false =>
        have := fin c.inC none (by rw [hu]; exact a.inp)
        rw [hu] at this
        refine Or.inl ⟨?_, fun _ _ h _ h1 => by cases h; rw [hu] at h1; cases h1⟩
        simp only [Bool.false_eq_true, if_false] at this ⊢
        generalize handleTickets _ _ = y at this ⊢
        cases y <;> exact this
      | true =>
        obtain ⟨hc', st, u1, u2, u3, u4, u5⟩ := updateKey_spec L f m.inp.suite c.inC a.inp.good
        by_cases hst : st = .ok
        · subst hst
          obtain rfl := u3 rfl
          have := fin _ (some .ok) (by rw [hu]; exact a.inp.updated)
          rw [hu] at this
          refine Or.inl ⟨?_, fun _ _ _ _ _ => ⟨_, u1⟩⟩
          simp only [if_true] at this ⊢
          rw [u1]
          simp only [exec_bind_ok, ne_eq, not_true_eq_false, if_false]
          generalize handleTickets _ _ = y at this ⊢
          cases y <;> exact this
        · refine Or.inr ⟨fun h => hst (u5 h), ?_⟩
          simp only [if_true]
          rw [u1]
          simp only [exec_bind_ok, if_pos hst]
          refine ⟨_, _, _, rfl, ⟨rfl, e, s, he, hacc, hu, rfl⟩, rfl, a.out, ?_, e2, e3.tinv, hkept,
            a.stage, rfl, a.closed, a.sent⟩
          exact ⟨u2, fun _ => (u4 hst).1, fun h => by cases h⟩

theorem acts_hear {L : Lib} {f : KeyFault} {c : Conn} {m : Machine} {call p tail content}
    (a : Acts L c m) (hlive : m.inDead = false)
    (h : Spec.unpad p = some (content, Spec.handshakeType)) :
    GoesOr L (m.hear L content) (f ≠ .none)
      (fun m' code => code = .internalError ∧ m.poisoned content m')
      (dispatch L f c call (p ++ tail) p.length) :=
  (acts_hear_or a hlive h).imp And.left id

/-- A decrypted record. -/
theorem acts_plaintext {L : Lib} {f : KeyFault} {c : Conn} {m : Machine} {call p tail}
    (a : Acts L c m) (hlive : m.inDead = false) :
    GoesOr L (m.plaintext L p) (f ≠ .none)
      (fun m' code => code = .internalError ∧ ∃ content,
        Spec.unpad p = some (content, Spec.handshakeType) ∧ m.poisoned content m')
      (dispatch L f c call (p ++ tail) p.length) := by
  unfold Machine.plaintext
  cases hu : Spec.unpad p with
  | none =>
    rw [dispatch_none L f c call p tail hu]
    exact Or.inl ⟨_, _, rfl, rfl, rfl, a⟩
  | some y =>
    obtain ⟨content, t⟩ := y
    simp only
    by_cases h1 : t = Spec.alertType
    · subst h1
      rw [dispatch_alert L f c call p tail hu, if_pos rfl]
      by_cases h2 : content.length < 2
      · rw [if_pos h2, if_pos h2]
        exact Or.inl ⟨_, _, rfl, rfl, rfl, a⟩
      · rw [if_neg h2, if_neg h2]
        by_cases h3 : content[1]? = some 0
        · rw [if_pos h3, if_pos h3]
          exact Or.inl ⟨_, _, rfl, rfl, rfl, a.out, a.inp, a.ear, a.tinv, a.kept, a.stage, a.waiting, rfl,
            a.sent⟩
        · rw [if_neg h3, if_neg h3]
          exact Or.inl ⟨_, _, rfl, rfl, rfl, a⟩
    rw [if_neg h1]
    by_cases h2 : t = Spec.handshakeType
    · subst h2
      rw [if_pos rfl]
      rcases acts_hear (f := f) a hlive hu with h | ⟨h1, c', r, m', h2, ⟨h3, h4⟩, h5⟩
      · exact Or.inl h
      · exact Or.inr ⟨h1, c', r, m', h2, ⟨h3, _, rfl, h4⟩, h5⟩
    rw [if_neg h2]
    by_cases h3 : t = Spec.appDataType
    · subst h3
      obtain ⟨_, hl, ht, _⟩ := unpad_length hu
      have htk : (p ++ tail).take content.length = content := by
        rw [List.take_append_of_le_length (by omega), ht]
      rw [dispatch_appData L f c call p tail hu, if_pos rfl, a.waiting]
      by_cases hw : m.waiting = true
      · rw [if_pos hw, if_pos hw]
        exact Or.inl ⟨_, _, rfl, rfl, rfl, a⟩
      · rw [if_neg hw, if_neg hw]
        by_cases hp : m.stage = .collecting
        · rw [if_pos hp, if_pos (by rw [a.stage]; exact phaseOf_receiving.2 hp)]
          obtain ⟨c', e1, e2⟩ := acts_settle a (by rw [hp]; simp)
          rw [e1]
          exact Or.inl ⟨_, _, rfl, rfl, htk, e2⟩
        · rw [if_neg hp, if_neg (by rw [a.stage]; exact fun h => hp (phaseOf_receiving.1 h))]
          exact Or.inl ⟨_, _, rfl, rfl, htk, a⟩
    rw [if_neg h3, dispatch_other L f c call p tail hu h1 h2 h3]
    exact Or.inl ⟨_, _, rfl, rfl, rfl, a⟩

theorem wf_len {v : Iovec} (h : v.WF) : v.len = v.bytes.length := by
  cases v with
  | null n => simp only [Iovec.WF] at h; subst h; rfl
  | buf d => rfl

/-- A record arrives. -/
theorem acts_receive_or {L : Lib} {f : Fault} {c : Conn} {m : Machine} {header payload out}
    (a : Acts L c m) (hh : header.WF) (hp : AllWF payload) (ho : out.WF) :
    GoesOr L (m.receive L header.bytes (flat payload) out.len) (f ≠ .none)
      (fun m' code => code = .internalError ∧ m.Lapse L (.receive header.bytes (flat payload) out.len) m')
      (unprotect L f c header payload out) := by
  have hs := unprotect_spec L f c header payload out a.inp.good.nonce hp ho
  unfold Machine.receive Machine.Lapse Machine.tries
  simp only [← wf_len hh, ← hp.totalLen_eq]
  generalize hx : unprotect L f c header payload out = x at hs
  unfold UnprotectSpec at hs
  rcases hs with ⟨h1, e⟩ | ⟨h1, hs⟩
  · rw [if_pos (by rw [← a.closed, h1]), e]
    exact Or.inl ⟨_, _, rfl, rfl, rfl, a⟩
  rw [if_neg (by rw [← a.closed, h1]; simp)]
  rcases hs with ⟨h2, e⟩ | ⟨h2, e⟩ | ⟨h2, h2', hs⟩
  · rw [if_pos h2, e]
    exact Or.inl ⟨_, _, rfl, rfl, rfl, a⟩
  · rw [if_neg (by omega), if_pos h2, e]
    exact Or.inl ⟨_, _, rfl, rfl, rfl, a⟩
  rw [if_neg (by omega), if_neg (by omega)]
  have hhd : header = .buf (Spec.recordHeader (totalLen payload)) ↔
      header.bytes = Spec.recordHeader (totalLen payload) := by
    constructor
    · intro h; rw [h]; rfl
    · intro h
      cases header with
      | null n => simp [Iovec.bytes, Spec.recordHeader] at h
      | buf d => simp only [Iovec.bytes] at h; rw [h]
  rcases hs with ⟨h3, e⟩ | ⟨h3, hs⟩
  · rw [if_pos (fun h => h3 (hhd.2 h)), e]
    exact Or.inl ⟨_, _, rfl, rfl, rfl, a⟩
  rw [if_neg (not_not_intro (hhd.1 h3))]
  rcases hs with ⟨h4, e⟩ | ⟨h4, hs⟩
  · rw [a.inp.blocked] at h4
    rw [if_pos (by rcases h4 with h | h; exact Or.inl h; exact Or.inr h.1), e]
    exact Or.inl ⟨_, _, rfl, rfl, by simp, a⟩
  obtain ⟨hlive, hat, hlt⟩ := a.inp.unblocked h4
  rw [if_neg (by simp [hlive]; omega)]
  have htries : m.closed = false ∧ 22 ≤ header.len + totalLen payload ∧
      header.len + totalLen payload ≤ 16406 ∧
      header.bytes = Spec.recordHeader (totalLen payload) ∧ m.inDead = false ∧
      m.inp.seq < 2 ^ 64 :=
    ⟨by rw [← a.closed, h1], h2, h2', hhd.1 h3, hlive, hlt⟩
  have a' : Acts L { c with inC := HalfConn.bump c.inC } { m with inp := m.inp.next } :=
    ⟨a.out, by rw [hlive]; exact .of (hat.bump hlt), a.ear, a.tinv, a.kept, a.stage, a.waiting,
      a.closed, a.sent⟩
  have hop : Spec.aeadOpen L c.inC.aead.alg c.inC.aead.key
      (Spec.recordNonce c.inC.nonce c.inC.seq.toNat) (Spec.recordHeader (totalLen payload))
      (flat payload) = m.inp.open L header.bytes (flat payload) := by
    rw [hhd.1 h3, hat.nonce hlt, hat.key, hat.good.alg]
    rfl
  rcases hs with ⟨e, h5⟩ | ⟨p, ob, h5, h6, h7, h8, h9, e⟩
  · by_cases hr : out.len + 16 < totalLen payload
    · rw [if_pos hr, e]
      exact Or.inl ⟨_, _, rfl, rfl, by simp, a'⟩
    · by_cases hf : f = .none
      · subst hf
        rw [if_neg hr, ← hop, h5 rfl (by omega), e]
        exact Or.inl ⟨_, _, rfl, rfl, by simp, a'⟩
      · rw [e]
        exact Or.inr ⟨hf, _, _, _, rfl, ⟨rfl, htries, Or.inl rfl⟩, by simp, a'⟩
  · have hl : out.len = ob.length := by rw [h6]; rfl
    rw [if_neg (by omega), ← hop, h5, e]
    rcases acts_plaintext (f := f.key) (call := some ⟨c.inC.aead.key,
        Spec.recordNonce c.inC.nonce c.inC.seq.toNat, Spec.recordHeader (totalLen payload),
        flat payload⟩) (tail := ob.drop p.length) (p := p) a' hlive with
      h | ⟨g1, c', r, m', g2, ⟨g3, content, g4, g5⟩, g6⟩
    · exact Or.inl h
    · refine Or.inr ⟨fun h => g1 (by rw [h]; rfl), c', r, m', g2,
        ⟨g3, htries, Or.inr ⟨p, content, by omega, rfl, g4, g5⟩⟩, g6⟩

theorem acts_receive {L : Lib} {c : Conn} {m : Machine} {header payload out} (a : Acts L c m)
    (hh : header.WF) (hp : AllWF payload) (ho : out.WF) :
    Goes L (m.receive L header.bytes (flat payload) out.len)
      (unprotect L .none c header payload out) := by
  rcases acts_receive_or (f := .none) a hh hp ho with h | h
  · exact h
  · exact absurd rfl h.1

/-- A record is made. -/
theorem acts_send_or {L : Lib} {f : EvpFault} {c : Conn} {m : Machine} {rt pt record}
    (a : Acts L c m) (hp : AllWF pt) (ho : record.WF) :
    GoesOr L (some (m.send L rt (flat pt) record.len)) (f ≠ .none)
      (fun m' code => code = .internalError ∧ m.Lapse L (.send rt (flat pt) record.len) m')
      (protect L f c rt pt record) := by
  unfold Machine.Lapse
  simp only
  unfold Machine.send
  rw [← hp.totalLen_eq]
  cases record with
  | null n =>
    simp only [Iovec.WF] at ho
    subst ho
    rw [if_pos (Or.inr (by simp [Iovec.len]))]
    unfold protect
    simp only
    by_cases h1 : totalLen pt > kMaxPlaintext
    · rw [if_pos h1]
      exact Or.inl ⟨_, _, rfl, rfl, rfl, a⟩
    · rw [if_neg h1, if_pos (by rw [recordOverhead_eq]; simp [Iovec.len])]
      exact Or.inl ⟨_, _, rfl, rfl, rfl, a⟩
  | buf rb =>
    obtain ⟨c', r, e1, e2⟩ := protect_spec L f c rt pt rb a.out.good.nonce
    rw [e1]
    unfold ProtectSpec at e2
    have hroom : (Iovec.buf rb).len = rb.length := rfl
    rcases e2 with ⟨g1, g2, g3⟩ | ⟨g1, g2, ⟨g3, g4, g5⟩ | ⟨t, g3, ⟨g4, g5, g6⟩ |
      ⟨g4, g5, g6, g7, g | ⟨g8, g9, g10, g11⟩⟩⟩⟩
    · rw [if_pos (show 16384 < totalLen pt ∨ (Iovec.buf rb).len < totalLen pt + 22 from g1), g2, g3]
      exact Or.inl ⟨_, _, rfl, rfl, rfl, a⟩
    · rw [if_neg (show ¬ (16384 < totalLen pt ∨ (Iovec.buf rb).len < totalLen pt + 22) by omega), g3, g4, g5]
      exact Or.inl ⟨_, _, rfl, rfl, rfl, a⟩
    · rw [a.out.blocked] at g4
      rw [if_neg (show ¬ (16384 < totalLen pt ∨ (Iovec.buf rb).len < totalLen pt + 22) by omega), g3]
      simp only
      rw [if_pos (by rcases g4 with h | h; exact Or.inl h; exact Or.inr h.1), g5, g6]
      exact Or.inl ⟨_, _, rfl, rfl, rfl, a⟩
    · obtain ⟨hlive, hat, hlt⟩ := a.out.unblocked g4
      refine Or.inr ⟨fun h => g.2.2.2 ⟨h, hp⟩, _, _, { m with out := m.out.next }, rfl, ?_, ?_, ?_⟩
      · rw [if_neg (show ¬ (16384 < totalLen pt ∨ (Iovec.buf rb).len < totalLen pt + 22) by omega), g3]
        simp only
        rw [if_neg (by simp [hlive]; omega)]
        exact ⟨(protect_internal a.out.good.nonce hp g1 g2 g3 e1).resolve_left g.1, rfl, trivial⟩
      · rw [g.2.1]; rfl
      · rw [g5]
        exact ⟨by rw [hlive]; exact .of (hat.bump hlt), a.inp, a.ear, a.tinv, a.kept, a.stage,
          a.waiting, a.closed, a.sent⟩
    · obtain ⟨hlive, hat, hlt⟩ := a.out.unblocked g4
      rw [if_neg (show ¬ (16384 < totalLen pt ∨ (Iovec.buf rb).len < totalLen pt + 22) by omega), g3]
      simp only
      rw [if_neg (by simp [hlive]; omega), g5]
      refine Or.inl ⟨_, _, rfl, g8, ?_, by rw [hlive]; exact .of (hat.bump hlt), a.inp, a.ear,
        a.tinv, a.kept, a.stage, a.waiting, a.closed, a.sent⟩
      rw [g11, g10]
      have hl : (m.out.protect L (Spec.innerPlaintext (flat pt) t 0)).length = totalLen pt + 22 := by
        rw [Frame.dirProtect_length]
        simp [Spec.innerPlaintext, hp.totalLen_eq]
      have he : Spec.sealRecord L c.outC.aead.alg c.outC.aead.key
          (Spec.recordNonce c.outC.nonce c.outC.seq.toNat) (Spec.innerPlaintext (flat pt) t 0) =
          m.out.protect L (Spec.innerPlaintext (flat pt) t 0) := by
        rw [hat.nonce hlt, hat.key, hat.good.alg]
        rfl
      rw [he, ← hl]
      simp [Iovec.bytes]

theorem acts_send {L : Lib} {c : Conn} {m : Machine} {rt pt record} (a : Acts L c m)
    (hp : AllWF pt) (ho : record.WF) :
    Goes L (some (m.send L rt (flat pt) record.len)) (protect L .none c rt pt record) := by
  rcases acts_send_or (f := .none) (rt := rt) a hp ho with h | h
  · exact h
  · exact absurd rfl h.1

/-- The outbound key is updated. -/
theorem acts_rekey_or {L : Lib} {f : KeyFault} {c : Conn} {m : Machine} (a : Acts L c m) :
    (∃ c', updateOutboundKey L f c = .ok (c', .ok) ∧ Acts L c' (m.rekey L)) ∨
    (f ≠ .none ∧ ∃ c' st, updateOutboundKey L f c = .ok (c', st) ∧ st ≠ .ok ∧
      Acts L c' { m with outDead := true }) := by
  obtain ⟨hc', st, u1, u2, u3, u4, u5⟩ := updateKey_spec L f m.out.suite c.outC a.out.good
  unfold updateOutboundKey
  rw [u1]
  by_cases hst : st = .ok
  · subst hst
    obtain rfl := u3 rfl
    exact Or.inl ⟨_, rfl, a.out.updated, a.inp, a.ear, a.tinv, a.kept, a.stage, a.waiting, a.closed,
      a.sent⟩
  · refine Or.inr ⟨fun h => hst (u5 h), _, _, rfl, hst, ⟨u2, fun _ => (u4 hst).1, ?_⟩, a.inp, a.ear,
      a.tinv, a.kept, a.stage, a.waiting, a.closed, a.sent⟩
    intro h
    cases h

theorem acts_rekey {L : Lib} {c : Conn} {m : Machine} (a : Acts L c m) :
    ∃ c', updateOutboundKey L .none c = .ok (c', .ok) ∧ Acts L c' (m.rekey L) := by
  rcases acts_rekey_or (f := .none) a with h | h
  · exact h
  · exact absurd rfl h.1

end S2A.Record
