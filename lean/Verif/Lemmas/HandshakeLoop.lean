import Verif.Lemmas.Handshake
namespace S2A.Handler
open Spec

/-- The handler is inside a message of an unexpected type. -/
def Alien (h : Handler) : Prop :=
  ∃ t, h.messageType = .ok t ∧ t ≠ kTicketType ∧ t ≠ kKeyUpdateType

/-- The handler has kept the bytes of a whole message of type `t` as if they belonged to the
message it will read next, and is (again) reading a header. -/
structure Stuck (h : Handler) (t : UInt8) : Prop where
  type : h.messageType = .ok t
  ne : ∀ f ∈ h.fragments, f ≠ []
  hdr : h.inData = false
  pos : 0 < h.hdrExp
  le : h.hdrExp ≤ 4
  cut : ∃ pre post, h.fragments = pre ++ post ∧ pre.flatten.length = 4

/-- The same ticket store. -/
def Same (h h' : Handler) : Prop :=
  h'.fullTickets = h.fullTickets ∧ h'.numFull = h.numFull ∧ h'.retrieved = h.retrieved

/-- One loop iteration that does not complete a message. -/
theorem loop_partial {h h1 : Handler} {rest rest1 : Bytes} {t : UInt8} {fuel : Nat} {ku tk : Bool}
    (hr : rest ≠ []) (h1r : h.readFragment rest = .ok (h1, rest1, false))
    (ht : h1.messageType = .ok t) :
    loop (fuel + 1) h rest ku tk =
      if t = kKeyUpdateType then loop fuel h1 rest1 true tk
      else if t = kTicketType then loop fuel h1 rest1 ku true
      else .ok (h1, .error .internal) := by
  rw [loop, if_neg (by simpa using hr), h1r]
  simp only [exec_bind_ok, ht, exec_pure]
  split
  · simp
  · split
    · simp
    · rfl

/-- One loop iteration that completes a key update. -/
theorem loop_keyUpdate {h h1 : Handler} {rest rest1 : Bytes} {fuel : Nat} {ku tk : Bool}
    (hr : rest ≠ []) (h1r : h.readFragment rest = .ok (h1, rest1, true))
    (ht : h1.messageType = .ok kKeyUpdateType) :
    loop (fuel + 1) h rest ku tk =
      if rest1 = [] then
        .ok ({ h1 with fragments := [] }, .ok ⟨false, true, h1.keyUpdateType, tk, h1.numFull⟩)
      else .ok (h1, .error .internal) := by
  rw [loop, if_neg (by simpa using hr), h1r]
  simp only [exec_bind_ok, ht, exec_pure, if_true]
  by_cases h0 : rest1 = []
  · subst h0; simp [expectingMore]
  · simp [h0]

/-- One loop iteration that completes a ticket. -/
theorem loop_ticketDone {h h1 : Handler} {rest rest1 : Bytes} {fuel : Nat} {ku tk : Bool}
    (hr : rest ≠ []) (h1r : h.readFragment rest = .ok (h1, rest1, true))
    (ht : h1.messageType = .ok kTicketType) :
    loop (fuel + 1) h rest ku tk =
      ((if h1.ignoreFuture then pure h1 else h1.addTicket) >>= fun h2 =>
        loop fuel { h2 with fragments := [] } rest1 ku true) := by
  rw [loop, if_neg (by simpa using hr), h1r]
  simp only [exec_bind_ok, ht, exec_pure]
  rw [if_neg (by decide)]
  simp only [if_true]
  split <;> rfl

/-- One loop iteration that completes a message of another type. -/
theorem loop_otherDone {h h1 : Handler} {rest rest1 : Bytes} {t : UInt8} {full : Bool} {fuel : Nat}
    {ku tk : Bool} (hr : rest ≠ []) (h1r : h.readFragment rest = .ok (h1, rest1, full))
    (ht : h1.messageType = .ok t) (h4 : t ≠ kTicketType) (h24 : t ≠ kKeyUpdateType) :
    loop (fuel + 1) h rest ku tk = .ok (h1, .error .internal) := by
  rw [loop, if_neg (by simpa using hr), h1r]
  simp only [exec_bind_ok, ht, exec_pure]
  rw [if_neg h24, if_neg h4]

/-- A complete message with a non-empty body. -/
structure IsMsg (m : Bytes) (t : UInt8) : Prop where
  head : m.head? = some t
  len : m.length = 4 + bodyLen m
  pos : 4 < m.length

theorem IsMsg.cases {m : Bytes} {t : UInt8} (hm : IsMsg m t) :
    ∃ a b c body, m = t :: a :: b :: c :: body ∧ body.length = len24 a b c ∧ 0 < len24 a b c := by
  match m, hm with
  | t' :: a :: b :: c :: body, hm =>
    have := hm.head
    simp at this
    subst this
    have h1 := hm.len
    have h2 := hm.pos
    simp [bodyLen] at h1 h2
    exact ⟨a, b, c, body, rfl, by omega, by omega⟩
  | [], hm => exact absurd hm.pos (by simp)
  | [_], hm => exact absurd hm.pos (by simp)
  | [_, _], hm => exact absurd hm.pos (by simp)
  | [_, _, _], hm => exact absurd hm.pos (by simp)

/-- The handler after the header part of the message `m`, or right away if the header was
read before: from there on only body bytes are missing. -/
theorem to_body {h : Handler} {p rest m rest' : Bytes} {t : UInt8} {fuel : Nat} {ku tk : Bool}
    (r : Rel h p) (hm : IsMsg m t) (he : p ++ rest = m ++ rest') (hp : p.length < m.length)
    (hf : rest.length < fuel) (hty : t = kTicketType ∨ t = kKeyUpdateType) :
    ∃ h1 p1 body fuel1 ku1 tk1,
      loop fuel h rest ku tk = loop fuel1 h1 (body ++ rest') ku1 tk1 ∧
      Rel h1 p1 ∧ 4 ≤ p1.length ∧ p1 ++ body = m ∧ body ≠ [] ∧
      (body ++ rest').length < fuel1 ∧ h1.fullTickets = h.fullTickets ∧
      h1.numFull = h.numFull ∧ h1.retrieved = h.retrieved ∧
      (t = kTicketType → ku1 = ku) ∧ (t = kKeyUpdateType → tk1 = tk) := by
  have hlen : (p ++ rest).length = (m ++ rest').length := by rw [he]
  simp only [List.length_append] at hlen
  by_cases h4 : p.length < 4
  · obtain ⟨a, b, c, body, rfl, hb, hz⟩ := hm.cases
    obtain ⟨h1, e1, e2, e3, e4, e5⟩ := read_hdr_full (t := t) (a := a) (b := b) (c := c)
      (rest' := body ++ rest') r h4 (by rw [he]; simp) hz
    have hr : rest ≠ [] := by
      intro h0; subst h0; simp at hlen; simp at hp; omega
    obtain ⟨fuel, rfl⟩ : ∃ k, fuel = k + 1 := ⟨fuel - 1, by omega⟩
    have hl := loop_partial (fuel := fuel) (ku := ku) (tk := tk) hr e1 e2.type
    have hbody : body ≠ [] := by intro h0; subst h0; simp at hb; omega
    have hfl : (body ++ rest').length < fuel := by
      simp only [List.length_append, List.length_cons] at hlen ⊢; omega
    rcases hty with rfl | rfl
    · rw [if_neg (by decide), if_pos rfl] at hl
      exact ⟨h1, _, body, fuel, ku, true, hl, e2, by simp, by simp, hbody, hfl, e3, e4, e5,
        fun _ => rfl, fun h => absurd h (by decide)⟩
    · rw [if_pos rfl] at hl
      exact ⟨h1, _, body, fuel, true, tk, hl, e2, by simp, by simp, hbody, hfl, e3, e4, e5,
        fun h => absurd h (by decide), fun _ => rfl⟩
  · obtain ⟨body, hb1, hb2⟩ : ∃ body, m = p ++ body ∧ rest = body ++ rest' := by
      rcases List.append_eq_append_iff.1 he with ⟨a, h1, h2⟩ | ⟨a, h1, h2⟩
      · exact ⟨a, h1, h2⟩
      · exfalso
        rw [h1] at hp; simp at hp; omega
    have hbody : body ≠ [] := by intro h0; subst h0; simp [hb1] at hp
    subst hb1 hb2
    exact ⟨h, p, body, fuel, ku, tk, rfl, r, by omega, rfl, hbody, hf, rfl, rfl, rfl,
      fun _ => rfl, fun _ => rfl⟩

theorem stored_length {h : Handler} (ti : TInv h) : (stored h).length = h.numFull := by
  rcases ti with ⟨_, b, c⟩ | ⟨_, ts, b, c, _⟩
  · simp [stored, b, c]
  · simp [stored, b, c]

theorem clear_rel (h : Handler) (hi : h.inData = false) (he : h.hdrExp = 4)
    (hf : h.fragments = []) : Rel h [] :=
  ⟨by simp [hf], by simp [hi, he, hf], by simp, by simp⟩

/-- Tickets kept after some more messages. -/
def keep (h : Handler) (ms : List Bytes) : List Bytes :=
  if h.retrieved then [] else (stored h ++ tickets ms).take 5

/-- Consuming a whole ticket. -/
theorem consume_ticket {h : Handler} {p rest m rest' : Bytes} {fuel : Nat} {ku tk : Bool}
    (r : Rel h p) (ti : TInv h) (hm : IsMsg m kTicketType) (he : p ++ rest = m ++ rest')
    (hp : p.length < m.length) (hf : rest.length < fuel) :
    ∃ h' fuel', loop fuel h rest ku tk = loop fuel' h' rest' ku true ∧
      rest'.length < fuel' ∧ Rel h' [] ∧ TInv h' ∧ h'.retrieved = h.retrieved ∧
      stored h' = keep h [m] := by
  obtain ⟨h1, p1, body, fuel1, ku1, tk1, e1, e2, e3, e4, e5, e6, e7, e8, e9, e10, _⟩ :=
    to_body (ku := ku) (tk := tk) r hm he hp hf (Or.inl rfl)
  obtain ⟨t, p1, rfl⟩ : ∃ t q, p1 = t :: q := by
    cases p1 with
    | nil => simp at e3
    | cons t q => exact ⟨t, q, rfl⟩
  have ht : t = kTicketType := by
    have := hm.head; rw [← e4] at this; simpa using this
  subst ht
  have hbl : (kTicketType :: p1 ++ body).length = 4 + bodyLen (kTicketType :: p1) := by
    have := hm.len
    rw [← e4, bodyLen_append e3] at this
    exact this
  obtain ⟨h2, g1, g2, g3, g4, g5, g6, g7, g8, g9, _⟩ :=
    read_dat_full (rest := body ++ rest') e2 e3 rfl hbl
  obtain ⟨fuel1, rfl⟩ : ∃ k, fuel1 = k + 1 := ⟨fuel1 - 1, by omega⟩
  have hl := loop_ticketDone (fuel := fuel1) (ku := ku1) (tk := tk1) (by simp [e5]) g1 g2
  rw [e1, hl, e10 rfl]
  have hf' : rest'.length < fuel1 := by
    simp only [List.length_append] at e6
    have : 0 < body.length := List.length_pos_iff.2 e5
    omega
  have tm : tickets [m] = [m] := by simp [tickets, hm.head, ticketType, kTicketType]
  have hig2 : h2.ignoreFuture = h1.ignoreFuture := by simp [ignoreFuture, g6, g7]
  have hig1 : h1.ignoreFuture = h.ignoreFuture := by simp [ignoreFuture, e8, e9]
  by_cases hi : h.ignoreFuture = true
  · rw [if_pos (by rw [hig2, hig1]; exact hi)]
    refine ⟨_, fuel1, rfl, hf', clear_rel _ g8 g9 rfl, ?_, by rw [← e9, ← g7], ?_⟩
    · rcases ti with ⟨a, b, c⟩ | ⟨a, ts, b, c, d⟩
      · exact Or.inl ⟨by rw [← a, ← e9, ← g7], by rw [← b, ← e7, ← g5], by rw [← c, ← e8, ← g6]⟩
      · exact Or.inr ⟨by rw [← a, ← e9, ← g7], ts, by rw [← b, ← e7, ← g5],
          by rw [← c, ← e8, ← g6], d⟩
    · have hst : stored ({ h2 with fragments := [] }) = stored h := by
        simp [stored, g5, e7]
      rw [hst]
      unfold keep
      rcases ti with ⟨a, b, c⟩ | ⟨a, ts, b, c, d⟩
      · simp [a, stored, b]
      · simp [ignoreFuture, a, kMaxTickets] at hi
        have hlen := stored_length (Or.inr ⟨a, ts, b, c, d⟩)
        simp [a]
        rw [List.take_append_of_le_length (by omega), List.take_of_length_le (by omega)]
  · rw [if_neg (by rw [hig2, hig1]; exact hi)]
    have ha : h.retrieved = false := by simp [ignoreFuture] at hi; exact hi.1
    have hn : h.numFull < 5 := by simp [ignoreFuture, kMaxTickets] at hi; omega
    rcases ti with ⟨a, _⟩ | ⟨a, ts, b, c, d⟩
    · rw [a] at ha; cases ha
    · have hadd : h2.addTicket = .ok { h2 with fullTickets := some (ts ++ [h2.fragments]),
                                               numFull := h2.numFull + 1, fragments := [] } := by
        simp [addTicket, g5, e7, b]
      rw [hadd, exec_bind_ok]
      have hfl : h2.fragments.flatten = m := by
        rw [g4, if_neg (by rw [hig1]; simp [hi]), e4]
      refine ⟨_, fuel1, rfl, hf', clear_rel _ g8 g9 rfl, ?_, by rw [← e9, ← g7], ?_⟩
      · refine Or.inr ⟨by rw [← a, ← e9, ← g7], _, rfl, ?_, ?_⟩
        · simp [g6, e8, c]
        · simp; omega
      · simp only [keep, a, tm]
        have : stored h = ts.map List.flatten := by simp [stored, b]
        rw [this]
        simp only [stored, List.map_append, List.map_cons, List.map_nil, hfl]
        simp
        rw [List.take_of_length_le (by simp; omega)]

/-- Consuming a key update at the end of a record. -/
theorem consume_keyUpdate {h : Handler} {p rest m : Bytes} {fuel : Nat} {ku tk : Bool}
    (r : Rel h p) (ti : TInv h) (hm : IsMsg m kKeyUpdateType) (he : p ++ rest = m)
    (hp : p.length < m.length) (hf : rest.length < fuel) :
    ∃ h', loop fuel h rest ku tk =
        .ok (h', .ok ⟨false, true, m.getD 4 kInvalidKeyUpdateType, tk, h'.numFull⟩) ∧
      Rel h' [] ∧ TInv h' ∧ h'.retrieved = h.retrieved ∧ h'.fullTickets = h.fullTickets := by
  obtain ⟨h1, p1, body, fuel1, ku1, tk1, e1, e2, e3, e4, e5, e6, e7, e8, e9, _, e10⟩ :=
    to_body (rest' := []) (ku := ku) (tk := tk) r hm (by simpa using he) hp hf (Or.inr rfl)
  obtain ⟨t, p1, rfl⟩ : ∃ t q, p1 = t :: q := by
    cases p1 with
    | nil => simp at e3
    | cons t q => exact ⟨t, q, rfl⟩
  have ht : t = kKeyUpdateType := by
    have := hm.head; rw [← e4] at this; simpa using this
  subst ht
  have hbl : (kKeyUpdateType :: p1 ++ body).length = 4 + bodyLen (kKeyUpdateType :: p1) := by
    have := hm.len
    rw [← e4, bodyLen_append e3] at this
    exact this
  obtain ⟨h2, g1, g2, g3, g4, g5, g6, g7, g8, g9, _⟩ :=
    read_dat_full (rest := body ++ []) e2 e3 rfl hbl
  obtain ⟨fuel1, rfl⟩ : ∃ k, fuel1 = k + 1 := ⟨fuel1 - 1, by omega⟩
  have hl := loop_keyUpdate (fuel := fuel1) (ku := ku1) (tk := tk1) (by simp [e5]) g1 g2
  rw [if_pos rfl] at hl
  rw [e1, hl, e10 rfl]
  have hfl : h2.fragments.flatten = m := by
    rw [g4, if_neg (by intro h; exact absurd h.2 (by decide)), e4]
  refine ⟨{ h2 with fragments := [] }, ?_, clear_rel _ g8 g9 rfl, ?_, by rw [← e9, ← g7],
    by rw [← e7, ← g5]⟩
  · simp only [keyUpdateType, hfl, List.getD_eq_getElem?_getD]
    cases m[4]? <;> rfl
  · rcases ti with ⟨a, b, c⟩ | ⟨a, ts, b, c, d⟩
    · exact Or.inl ⟨by rw [← a, ← e9, ← g7], by rw [← b, ← e7, ← g5], by rw [← c, ← e8, ← g6]⟩
    · exact Or.inr ⟨by rw [← a, ← e9, ← g7], ts, by rw [← b, ← e7, ← g5],
        by rw [← c, ← e8, ← g6], d⟩

/-- A key update followed by more bytes is refused. -/
theorem refuse_keyUpdate4 {h : Handler} {p rest m rest' : Bytes} {fuel : Nat} {ku tk : Bool}
    (r : Rel h p) (hm : IsMsg m kKeyUpdateType) (he : p ++ rest = m ++ rest') (hr' : rest' ≠ [])
    (hp : p.length < m.length) (hf : rest.length < fuel) :
    ∃ h', loop fuel h rest ku tk = .ok (h', .error .internal) ∧ Stuck h' kKeyUpdateType ∧
      Same h h' ∧ h'.hdrExp = 4 := by
  obtain ⟨h1, p1, body, fuel1, ku1, tk1, e1, e2, e3, e4, e5, e6, e7, e8, e9, _, e10⟩ :=
    to_body (rest' := rest') (ku := ku) (tk := tk) r hm he hp hf (Or.inr rfl)
  obtain ⟨t, p1, rfl⟩ : ∃ t q, p1 = t :: q := by
    cases p1 with
    | nil => simp at e3
    | cons t q => exact ⟨t, q, rfl⟩
  have ht : t = kKeyUpdateType := by
    have := hm.head; rw [← e4] at this; simpa using this
  subst ht
  have hbl : (kKeyUpdateType :: p1 ++ body).length = 4 + bodyLen (kKeyUpdateType :: p1) := by
    have := hm.len
    rw [← e4, bodyLen_append e3] at this
    exact this
  obtain ⟨h2, g1, g2, g3, g4, g5, g6, g7, g8, g9, g10⟩ :=
    read_dat_full (rest := body ++ rest') e2 e3 rfl hbl
  obtain ⟨fuel1, rfl⟩ : ∃ k, fuel1 = k + 1 := ⟨fuel1 - 1, by omega⟩
  have hl := loop_keyUpdate (fuel := fuel1) (ku := ku1) (tk := tk1) (by simp [e5]) g1 g2
  rw [if_neg hr'] at hl
  exact ⟨h2, by rw [e1, hl], ⟨g2, g3, g8, by omega, by omega, g10⟩,
    ⟨by rw [g5, e7], by rw [g6, e8], by rw [g7, e9]⟩, g9⟩

theorem refuse_keyUpdate {h : Handler} {p rest m rest' : Bytes} {fuel : Nat} {ku tk : Bool}
    (r : Rel h p) (hm : IsMsg m kKeyUpdateType) (he : p ++ rest = m ++ rest') (hr' : rest' ≠ [])
    (hp : p.length < m.length) (hf : rest.length < fuel) :
    ∃ h', loop fuel h rest ku tk = .ok (h', .error .internal) ∧ Stuck h' kKeyUpdateType ∧
      Same h h' := by
  obtain ⟨h', a, b, c, _⟩ := refuse_keyUpdate4 (ku := ku) (tk := tk) r hm he hr' hp hf
  exact ⟨h', a, b, c⟩

/-- Reading bytes of a message that stays incomplete. -/
theorem consume_part {h : Handler} {p rest : Bytes} {fuel : Nat} {ku tk : Bool} {t : UInt8}
    {q' : Bytes} (r : Rel h p) (hr : rest ≠ []) (hq : p ++ rest = t :: q')
    (hinc : 4 ≤ (p ++ rest).length → (p ++ rest).length < 4 + bodyLen (p ++ rest))
    (hf : rest.length < fuel) (hty : t = kTicketType ∨ t = kKeyUpdateType) :
    ∃ h', loop fuel h rest ku tk = .ok (h', .ok ⟨true, ku || decide (t = kKeyUpdateType),
        kInvalidKeyUpdateType, tk || decide (t = kTicketType), h'.numFull⟩) ∧
      Rel h' (p ++ rest) ∧ h'.retrieved = h.retrieved ∧ h'.fullTickets = h.fullTickets ∧
      h'.numFull = h.numFull := by
  -- the end of the loop
  have fin : ∀ (h' : Handler) (fuel : Nat) (ku tk : Bool), 0 < fuel → Rel h' (p ++ rest) →
      loop fuel h' [] ku tk = .ok (h', .ok ⟨true, ku, kInvalidKeyUpdateType, tk, h'.numFull⟩) := by
    intro h' fuel ku tk h0 hrel
    obtain ⟨fuel, rfl⟩ : ∃ k, fuel = k + 1 := ⟨fuel - 1, by omega⟩
    have := hrel.expecting
    rw [hq] at this
    simp at this
    simp [loop, this]
  have hrl : 0 < rest.length := List.length_pos_iff.2 hr
  obtain ⟨fuel, rfl⟩ : ∃ k, fuel = k + 1 := ⟨fuel - 1, by omega⟩
  have one : ∀ h', h.readFragment rest = .ok (h', [], false) → Rel h' (p ++ rest) →
      h'.fullTickets = h.fullTickets → h'.numFull = h.numFull → h'.retrieved = h.retrieved →
      ∃ h', loop (fuel + 1) h rest ku tk =
        .ok (h', .ok ⟨true, ku || decide (t = kKeyUpdateType),
        kInvalidKeyUpdateType, tk || decide (t = kTicketType), h'.numFull⟩) ∧
      Rel h' (p ++ rest) ∧ h'.retrieved = h.retrieved ∧ h'.fullTickets = h.fullTickets ∧
      h'.numFull = h.numFull := by
    intro h' a b c d e
    have hty' : h'.messageType = .ok t := by rw [hq] at b; exact b.type
    refine ⟨h', ?_, b, e, c, d⟩
    rw [loop_partial hr a hty']
    rcases hty with rfl | rfl
    · rw [if_neg (by decide), if_pos rfl, fin _ _ _ _ (by omega) b]
      simp [kTicketType, kKeyUpdateType]
    · rw [if_pos rfl, fin _ _ _ _ (by omega) b]
      simp [kTicketType, kKeyUpdateType]
  by_cases h4 : (p ++ rest).length < 4
  · obtain ⟨h', a, b, c, d, e⟩ := read_hdr_part r hr h4
    exact one h' a b c d e
  · by_cases hp4 : 4 ≤ p.length
    · obtain ⟨h', a, b, c, d, e⟩ := read_dat_part r hp4 hr
        (by have := hinc (by omega); rwa [bodyLen_append hp4] at this)
      exact one h' a b c d e
    · -- header completes, then some body bytes
      obtain ⟨a, b, c, body, hb⟩ : ∃ a b c body, p ++ rest = t :: a :: b :: c :: body := by
        rw [hq]
        have hl : (p ++ rest).length = q'.length + 1 := by rw [hq]; simp
        match q', hl with
        | a :: b :: c :: body, _ => exact ⟨a, b, c, body, rfl⟩
        | [], hl => simp at hl h4; omega
        | [_], hl => simp at hl h4; omega
        | [_, _], hl => simp at hl h4; omega
      have hz : 0 < len24 a b c := by
        have := hinc (by omega)
        rw [hb] at this
        simp [bodyLen] at this
        omega
      obtain ⟨h1, e1, e2, e3, e4, e5⟩ := read_hdr_full (rest' := body) r (by omega) hb hz
      have hl := loop_partial (fuel := fuel) (ku := ku) (tk := tk) hr e1 e2.type
      by_cases hbody : body = []
      · subst hbody
        have := one h1 e1 (by rw [hb]; exact e2) e3 e4 e5
        exact this
      · obtain ⟨h2, f1, f2, f3, f4, f5⟩ := read_dat_part (rest := body) e2 (by simp) hbody
          (by have := hinc (by omega); rw [hb] at this; simpa [bodyLen] using this)
        have hlen : (p ++ rest).length = body.length + 4 := by rw [hb]; simp
        simp only [List.length_append] at hlen
        have hb0 : 0 < body.length := List.length_pos_iff.2 hbody
        obtain ⟨fuel, rfl⟩ : ∃ k, fuel = k + 1 := ⟨fuel - 1, by omega⟩
        have f2' : Rel h2 (p ++ rest) := by rw [hb]; exact f2
        refine ⟨h2, ?_, f2', by rw [f5, e5], by rw [f3, e3], by rw [f4, e4]⟩
        rw [hl]
        have hty2 : h2.messageType = .ok t := f2.type
        rcases hty with rfl | rfl
        · rw [if_neg (by decide), if_pos rfl, loop_partial hbody f1 hty2, if_neg (by decide),
            if_pos rfl, fin _ _ _ _ (by omega) f2']
          simp [kTicketType, kKeyUpdateType]
        · rw [if_pos rfl, loop_partial hbody f1 hty2, if_pos rfl, fin _ _ _ _ (by omega) f2']
          simp [kTicketType, kKeyUpdateType]

/-- The first byte of a message of another type is enough for an error. -/
theorem refuse_type {h : Handler} {p rest : Bytes} {fuel : Nat} {ku tk : Bool} {t : UInt8}
    {q' : Bytes} (r : Rel h p) (hr : rest ≠ []) (hq : p ++ rest = t :: q')
    (hf : rest.length < fuel) (h4 : t ≠ kTicketType) (h24 : t ≠ kKeyUpdateType) :
    ∃ h', loop fuel h rest ku tk = .ok (h', .error .internal) ∧ Alien h' ∧ Same h h' := by
  obtain ⟨fuel, rfl⟩ : ∃ k, fuel = k + 1 := ⟨fuel - 1, by omega⟩
  by_cases hl : (p ++ rest).length < 4
  · obtain ⟨h', a, b, c, d, e⟩ := read_hdr_part r hr hl
    rw [hq] at b
    exact ⟨h', loop_otherDone hr a b.type h4 h24, ⟨t, b.type, h4, h24⟩, c, d, e⟩
  · by_cases hp4 : 4 ≤ p.length
    · by_cases hx : (p ++ rest).length < 4 + bodyLen p
      · obtain ⟨h', a, b, c, d, e⟩ := read_dat_part r hp4 hr hx
        rw [hq] at b
        exact ⟨h', loop_otherDone hr a b.type h4 h24, ⟨t, b.type, h4, h24⟩, c, d, e⟩
      · obtain ⟨t', p', rfl⟩ : ∃ t q, p = t :: q := by
          cases p with
          | nil => simp at hp4
          | cons t q => exact ⟨t, q, rfl⟩
        have ht : t' = t := by simpa using congrArg List.head? hq
        subst ht
        have hd := (r.dat hp4).2.2.2.1
        obtain ⟨h', a, b, _, _, c, d, e, _⟩ := read_dat_full (rest := rest) (body := rest.take h.dataExp)
          (rest' := rest.drop h.dataExp) r hp4 (by simp) (by
            simp only [List.length_append, List.length_take] at hx ⊢; omega)
        exact ⟨h', loop_otherDone hr a b h4 h24, ⟨_, b, h4, h24⟩, c, d, e⟩
    · obtain ⟨a, b, c, body, hb⟩ : ∃ a b c body, p ++ rest = t :: a :: b :: c :: body := by
        rw [hq]
        have hl' : (p ++ rest).length = q'.length + 1 := by rw [hq]; simp
        match q', hl' with
        | a :: b :: c :: body, _ => exact ⟨a, b, c, body, rfl⟩
        | [], hl' => simp at hl' hl; omega
        | [_], hl' => simp at hl' hl; omega
        | [_, _], hl' => simp at hl' hl; omega
      by_cases hz : 0 < len24 a b c
      · obtain ⟨h1, e1, e2, c, d, e⟩ := read_hdr_full (rest' := body) r (by omega) hb hz
        exact ⟨h1, loop_otherDone hr e1 e2.type h4 h24, ⟨t, e2.type, h4, h24⟩, c, d, e⟩
      · obtain ⟨h1, e1, e2, c, d, e, _⟩ :=
          read_hdr_zero (rest' := body) r (by omega) hb (by omega)
        exact ⟨h1, loop_otherDone hr e1 e2 h4 h24, ⟨t, e2, h4, h24⟩, c, d, e⟩

end S2A.Handler
