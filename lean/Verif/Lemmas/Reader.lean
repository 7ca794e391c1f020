import Verif.Lemmas.Heard
import Verif.Lemmas.HsCalls
import Verif.Spec.Reader
/-
The handshake message handler does with every record what `Spec.Reader` says.
-/
namespace S2A.Handler
open Spec (Reader ticketType updateType hsSplit bodyLength missing len24)
open HalfConn (exec_bind_eq_ok)

theorem bodyLength_eq (p : Bytes) : bodyLength p = bodyLen p := by
  unfold bodyLength
  split
  · rfl
  · next hx =>
    match p, hx with
    | [], _ => rfl
    | [_], _ => rfl
    | [_, _], _ => rfl
    | [_, _, _], _ => rfl
    | t :: a :: b :: c :: l, hx => exact absurd rfl (hx t a b c l)

/-- The state of the handler is the one described. -/
def Knows (h : Handler) : Reader → Prop
  | .inside p => Rel h p ∧ (p = [] ∨ p.head? = some ticketType ∨ p.head? = some updateType)
  | .foreign p => Rel h p ∧ ∃ t q, p = t :: q ∧ t ≠ kTicketType ∧ t ≠ kKeyUpdateType
  | .stale f n => ∃ t, Stuck h t ∧ h.hdrExp + n = 4 ∧
      (f = true ↔ t ≠ kTicketType ∧ t ≠ kKeyUpdateType)

/-- The result of processing is the one described. -/
def Agrees (o : Option (Reader × Bool)) (x : Exec (Handler × Except StatusCode Result)) : Prop :=
  match o with
  | none => x = .error .negativeShift
  | some (r, ok) => ∃ h' res, x = .ok (h', res) ∧ Knows h' r ∧ TInv h' ∧
      (if ok then ∃ y, res = .ok y else res = .error .internal)

theorem stuck_size {h : Handler} {t : UInt8} {b : Bytes} (hs : Stuck h t) (hb : b ≠ []) :
    sizeOuter (h.fragments ++ [b]) 1 16 0 = .error .negativeShift := by
  obtain ⟨pre, post, c1, c2⟩ := hs.cut
  rw [c1]
  exact sizeOuter_stuck c2 (fun f hf => hs.ne f (by rw [c1]; simp [hf])) hb

/-- A message that was not put away, and more bytes. -/
theorem stuck_wait {h : Handler} {t : UInt8} {n : Nat} {f : Bool} {rest : Bytes} {fuel : Nat}
    {ku tk : Bool} (hs : Stuck h t) (ti : TInv h) (hn : h.hdrExp + n = 4)
    (hf : f = true ↔ t ≠ kTicketType ∧ t ≠ kKeyUpdateType) (hfu : rest.length < fuel) :
    Agrees (Reader.wait f n rest) (loop fuel h rest ku tk) := by
  obtain ⟨fuel, rfl⟩ : ∃ k, fuel = k + 1 := ⟨fuel - 1, by omega⟩
  unfold Reader.wait
  by_cases hr : rest = []
  · subst hr
    have hp := hs.pos
    rw [if_pos (by simp; omega)]
    refine ⟨h, _, by rw [loop]; rfl, ⟨t, hs, by simpa using hn, hf⟩, ti, by simp⟩
  · have hlen : 0 < rest.length := List.length_pos_iff.2 hr
    by_cases hl : n + rest.length < 4
    · rw [if_pos hl]
      have hread : h.readFragment rest = .ok ({ h with
          fragments := h.fragments ++ [rest],
          hdrExp := h.hdrExp - rest.length }, [], false) := by
        rw [readFragment, if_pos hs.hdr, if_neg (by omega), store_hdr hs.hdr]
        rfl
      obtain ⟨pre, post, c1, c2⟩ := hs.cut
      have hs' : Stuck ({ h with
          fragments := h.fragments ++ [rest],
          hdrExp := h.hdrExp - rest.length } : Handler) t := by
        refine ⟨messageType_append (l := [rest]) hs.type rfl, ?_, hs.hdr, ?_, ?_, pre,
          post ++ [rest], by simp [c1], c2⟩
        · intro f hf
          rcases List.mem_append.1 hf with hf | hf
          · exact hs.ne f hf
          · simp at hf; subst hf; exact hr
        · show 0 < h.hdrExp - rest.length
          omega
        · show h.hdrExp - rest.length ≤ 4
          have := hs.le; omega
      have hk : Knows ({ h with
          fragments := h.fragments ++ [rest],
          hdrExp := h.hdrExp - rest.length } : Handler) (.stale f (n + rest.length)) :=
        ⟨t, hs', by show h.hdrExp - rest.length + _ = 4; omega, hf⟩
      rw [loop_partial hr hread hs'.type]
      have hre : rest.isEmpty = false := by simpa using hr
      obtain ⟨fuel, rfl⟩ : ∃ k, fuel = k + 1 := ⟨fuel - 1, by omega⟩
      by_cases h24 : t = kKeyUpdateType
      · rw [if_pos h24]
        refine ⟨_, _, by rw [loop]; rfl, hk, ti, ?_⟩
        have : f = false := by
          cases f with
          | false => rfl
          | true => exact absurd h24 (hf.1 rfl).2
        simp [this]
      · rw [if_neg h24]
        by_cases h4 : t = kTicketType
        · rw [if_pos h4]
          refine ⟨_, _, by rw [loop]; rfl, hk, ti, ?_⟩
          have : f = false := by
            cases f with
            | false => rfl
            | true => exact absurd h4 (hf.1 rfl).1
          simp [this]
        · rw [if_neg h4]
          refine ⟨_, _, rfl, hk, ti, ?_⟩
          simp [hf.2 ⟨h4, h24⟩, hre]
    · rw [if_neg hl]
      have hp := hs.pos
      show _ = _
      rw [loop, if_neg (by simpa using hr), readFragment, if_pos hs.hdr, if_pos (by omega)]
      simp only [store_hdr hs.hdr, exec_bind_ok]
      have : ({ h with
          fragments := h.fragments ++ [rest.take h.hdrExp],
          hdrExp := kHeaderLen } : Handler).dataSizeFromHeader = .error .negativeShift := by
        unfold dataSizeFromHeader
        refine stuck_size hs ?_
        intro h0
        have := congrArg List.length h0
        simp only [List.length_take, List.length_nil] at this
        omega
      rw [this]
      rfl

theorem same_tinv {h h' : Handler} (a : h'.fullTickets = h.fullTickets)
    (b : h'.numFull = h.numFull) (c : h'.retrieved = h.retrieved) (ti : TInv h) : TInv h' :=
  Same.tinv ⟨a, b, c⟩ ti

/-- Some bytes of a foreign message. -/
theorem foreign_skip {h : Handler} {p rest : Bytes} {t : UInt8} {q : Bytes} {fuel : Nat}
    {ku tk : Bool} (r : Rel h p) (ti : TInv h) (hr : rest ≠ []) (hq : p ++ rest = t :: q)
    (h4 : t ≠ kTicketType) (h24 : t ≠ kKeyUpdateType) (hf : rest.length < fuel) :
    Agrees (some (.skip p rest, false)) (loop fuel h rest ku tk) := by
  obtain ⟨fuel, rfl⟩ : ∃ k, fuel = k + 1 := ⟨fuel - 1, by omega⟩
  have hlen : 0 < rest.length := List.length_pos_iff.2 hr
  have hft : (true = true ↔ t ≠ kTicketType ∧ t ≠ kKeyUpdateType) := by simp [h4, h24]
  unfold Reader.skip missing
  simp only [bodyLength_eq]
  by_cases hl : (p ++ rest).length < 4
  · obtain ⟨h', a, b, c, d, e⟩ := read_hdr_part r hr hl
    simp only [List.length_append] at hl
    have hb := b
    rw [hq] at hb
    rw [if_pos (show p.length < 4 by omega), List.take_of_length_le (by omega),
      if_neg (by rw [List.length_append]; omega)]
    exact ⟨h', _, loop_otherDone hr a hb.type h4 h24, ⟨b, t, q, hq, h4, h24⟩,
      same_tinv c d e ti, by simp⟩
  · by_cases hp4 : 4 ≤ p.length
    · rw [if_neg (show ¬ p.length < 4 by omega)]
      by_cases hx : (p ++ rest).length < 4 + bodyLen p
      · obtain ⟨h', a, b, c, d, e⟩ := read_dat_part r hp4 hr hx
        have hb := b
        rw [hq] at hb
        rw [List.length_append] at hx
        rw [List.take_of_length_le (by omega), if_neg (by
          rw [bodyLen_append hp4, List.length_append]; omega)]
        exact ⟨h', _, loop_otherDone hr a hb.type h4 h24, ⟨b, t, q, hq, h4, h24⟩,
          same_tinv c d e ti, by simp⟩
      · obtain ⟨t', p', rfl⟩ : ∃ t q, p = t :: q := by
          cases p with
          | nil => simp at hp4
          | cons t q => exact ⟨t, q, rfl⟩
        have ht : t' = t := by simpa using congrArg List.head? hq
        subst ht
        have hd := (r.dat hp4).2.2.2.1
        rw [List.length_append] at hx
        have hde : 4 + bodyLen (t' :: p') - (t' :: p').length = h.dataExp := by omega
        have hbl : (t' :: p' ++ rest.take h.dataExp).length = 4 + bodyLen (t' :: p') := by
          simp only [List.length_append, List.length_take] at hx ⊢; omega
        obtain ⟨h', a, b, f1, _, c, d, e, g1, g2, g3⟩ :=
          read_dat_full (rest := rest) (body := rest.take h.dataExp)
          (rest' := rest.drop h.dataExp) r hp4 (by simp) hbl
        rw [hde, if_pos ⟨by rw [hbl]; omega, by rw [bodyLen_append hp4]; exact hbl⟩]
        exact ⟨h', _, loop_otherDone hr a b h4 h24,
          ⟨t', ⟨b, f1, g1, by omega, by omega, g3⟩, by omega, hft⟩, same_tinv c d e ti, by simp⟩
    · obtain ⟨a, b, c, body, hb⟩ : ∃ a b c body, p ++ rest = t :: a :: b :: c :: body := by
        rw [hq]
        have hl' : (p ++ rest).length = q.length + 1 := by rw [hq]; simp
        match q, hl' with
        | a :: b :: c :: body, _ => exact ⟨a, b, c, body, rfl⟩
        | [], hl' => simp at hl' hl; omega
        | [_], hl' => simp at hl' hl; omega
        | [_, _], hl' => simp at hl' hl; omega
      have htake : p ++ rest.take (4 - p.length) = [t, a, b, c] := by
        have : (p ++ rest).take 4 = [t, a, b, c] := by rw [hb]; simp
        rwa [List.take_append, List.take_of_length_le (by omega)] at this
      rw [if_pos (show p.length < 4 by omega), htake]
      by_cases hz : 0 < len24 a b c
      · obtain ⟨h1, e1, e2, c, d, e⟩ := read_hdr_full (rest' := body) r (by omega) hb hz
        rw [if_neg (by simp [bodyLen]; omega)]
        exact ⟨h1, _, loop_otherDone hr e1 e2.type h4 h24, ⟨e2, t, _, rfl, h4, h24⟩,
          same_tinv c d e ti, by simp⟩
      · obtain ⟨h1, e1, e2, c, d, e, g1, g2, g3, g4⟩ :=
          read_hdr_zero (rest' := body) r (by omega) hb (by omega)
        rw [if_pos (by simp [bodyLen]; omega)]
        exact ⟨h1, _, loop_otherDone hr e1 e2 h4 h24,
          ⟨t, ⟨e2, g3, g1, by omega, by omega, h1.fragments, [], by simp, g4⟩, by omega, hft⟩,
          same_tinv c d e ti, by simp⟩

theorem skip_nil_take {m s : Bytes} (h : 4 ≤ m.length) :
    Reader.skip [] (m ++ s) = Reader.skip [] m := by
  unfold Reader.skip
  rw [show missing [] = 4 from rfl, take4_append h]

/-- In order so far. -/
theorem inside_read {h : Handler} {p rest : Bytes} {ms : List Bytes} {q : Bytes} {fuel : Nat}
    {ku tk : Bool} (r : Rel h p) (ti : TInv h) (hs : hsSplit (p ++ rest) = (ms, q))
    (hp : p = [] ∨ p.head? = some ticketType ∨ p.head? = some updateType)
    (hf : rest.length < fuel) : Agrees (Reader.read ms q) (loop fuel h rest ku tk) := by
  have k4 : kTicketType = ticketType := rfl
  have k24 : kKeyUpdateType = updateType := rfl
  -- a foreign message begins in this record
  have pnil : ∀ t s, p ++ rest = t :: s → ¬ (t = kTicketType ∨ t = kKeyUpdateType) → p = [] := by
    intro t s he ht
    cases p with
    | nil => rfl
    | cons t' p =>
      have : t' = t := by simpa using congrArg List.head? he
      subst this
      exact absurd (by simpa [k4, k24] using hp) ht
  induction ms generalizing h p rest fuel ku tk with
  | nil =>
    rcases hsSplit_inv _ _ _ hs with ⟨_, rfl, hi⟩ | ⟨m, ms', s1, h1, _⟩
    · unfold Reader.read
      by_cases hr : rest = []
      · subst hr
        simp only [List.append_nil]
        rw [if_pos hp]
        obtain ⟨fuel, rfl⟩ : ∃ k, fuel = k + 1 := ⟨fuel - 1, by omega⟩
        exact ⟨h, _, by rw [loop]; rfl, ⟨r, hp⟩, ti, by simp⟩
      · obtain ⟨t, q', hq⟩ : ∃ t q', p ++ rest = t :: q' := by
          cases hpr : p ++ rest with
          | nil => simp at hpr; exact absurd hpr.2 hr
          | cons t q' => exact ⟨t, q', rfl⟩
        by_cases hty : t = kTicketType ∨ t = kKeyUpdateType
        · have hh : p ++ rest = [] ∨ (p ++ rest).head? = some ticketType ∨
              (p ++ rest).head? = some updateType := by
            rw [hq]; right; simpa [k4, k24] using hty
          rw [if_pos hh]
          obtain ⟨h', a1, a2, a3, a4, a5⟩ :=
            consume_part (ku := ku) (tk := tk) r hr hq hi hf hty
          exact ⟨h', _, a1, ⟨a2, hh⟩, same_tinv a4 a5 a3 ti, by simp⟩
        · have hp0 := pnil t q' hq hty
          subst hp0
          rw [if_neg (by rw [hq]; simpa [k4, k24] using hty)]
          exact foreign_skip r ti hr hq (fun h => hty (Or.inl h)) (fun h => hty (Or.inr h)) hf
    · cases h1
  | cons m ms ih =>
    rcases hsSplit_inv _ _ _ hs with ⟨h0, _⟩ | ⟨m', ms', s1, h1, h2, h3, h4, h5⟩
    · cases h0
    · cases h1
      have hpm := prefix_lt r.incomplete h2 h4 h5
      have hr := rest_nil_of h2 hpm
      obtain ⟨t, m', rfl⟩ : ∃ t m', m = t :: m' := by
        cases m with
        | nil => simp at h5
        | cons t m' => exact ⟨t, m', rfl⟩
      have hfl : ms.flatten ++ q = s1 := by
        have := hsSplit_flatten s1
        rw [h3] at this
        exact this
      unfold Reader.read
      by_cases hty : t = kTicketType ∨ t = kKeyUpdateType
      · rw [if_pos (by simpa [k4, k24] using hty)]
        by_cases hl4 : (t :: m').length = 4
        · rw [if_pos hl4, hfl]
          match m', hl4 with
          | [x, y, z], hl4 =>
            obtain ⟨fuel, rfl⟩ : ∃ k, fuel = k + 1 := ⟨fuel - 1, by omega⟩
            have hz : len24 x y z = 0 := by
              simp [bodyLen] at h4; omega
            have hp4 : p.length < 4 := by simpa using hpm
            obtain ⟨g, e1, e2, e3, e4, e5, e6, e7, e8, e9⟩ :=
              read_hdr_zero (rest' := s1) r hp4 (by rw [h2]; rfl) hz
            have hst : Stuck g t := ⟨e2, e8, e6, by omega, by omega, g.fragments, [], by simp, e9⟩
            have hlen := congrArg List.length h2
            simp only [List.length_append, List.length_cons, List.length_nil] at hlen
            have hff : (false = true ↔ t ≠ kTicketType ∧ t ≠ kKeyUpdateType) := by
              simp; intro h; exact hty.resolve_left h
            rw [loop_partial hr e1 e2]
            rcases hty with rfl | rfl
            · rw [if_neg (by decide), if_pos rfl]
              exact stuck_wait hst (same_tinv e3 e4 e5 ti) (by omega) hff (by omega)
            · rw [if_pos rfl]
              exact stuck_wait hst (same_tinv e3 e4 e5 ti) (by omega) hff (by omega)
        · rw [if_neg hl4]
          rcases hty with rfl | rfl
          · rw [if_pos (show (kTicketType :: m').head? = some ticketType from rfl)]
            obtain ⟨h1, fuel1, b1, b2, b3, b4, b5, b6⟩ :=
              consume_ticket (ku := ku) (tk := tk) r ti ⟨rfl, h4, by omega⟩ h2 hpm hf
            rw [b1]
            exact ih b3 b4 (by simpa using h3) (Or.inl rfl) b2 (fun _ _ _ _ => rfl)
          · rw [if_neg (c := (kKeyUpdateType :: m').head? = some ticketType)
              (show some kKeyUpdateType ≠ some ticketType by decide)]
            by_cases hend : s1 = []
            · subst hend
              rw [hsSplit_nil] at h3
              cases h3
              rw [if_pos ⟨rfl, rfl⟩]
              obtain ⟨h', b1, b2, b3, b4, b5⟩ :=
                consume_keyUpdate (ku := ku) (tk := tk) r ti ⟨rfl, h4, by omega⟩
                  (by simpa using h2) hpm hf
              exact ⟨h', _, b1, ⟨b2, Or.inl rfl⟩, b3, by simp⟩
            · rw [if_neg (by
                rintro ⟨rfl, rfl⟩
                exact hend (by simpa using hfl.symm))]
              obtain ⟨g, b1, b2, b3⟩ := refuse_keyUpdate4 (ku := ku) (tk := tk) r
                ⟨rfl, h4, by omega⟩ h2 hend hpm hf
              exact ⟨g, _, b1, ⟨_, b2, by omega, by simp⟩, Same.tinv b3.1 ti, by simp⟩
      · have hp0 := pnil t _ (by rw [h2]; rfl) hty
        subst hp0
        rw [if_neg (by simpa [k4, k24] using hty)]
        have := foreign_skip (ku := ku) (tk := tk) r ti hr (by rw [h2]; rfl)
          (fun h => hty (Or.inl h)) (fun h => hty (Or.inr h)) hf
        simp only [List.nil_append] at h2
        subst h2
        rw [skip_nil_take h5] at this
        exact this

/-- Every record, in every situation. -/
theorem Knows.process {h : Handler} {r : Reader} (k : Knows h r) (ti : TInv h) (record : Bytes) :
    Agrees (r.hear record) (h.process record) := by
  unfold Handler.process
  cases r with
  | inside got => exact inside_read k.1 ti rfl k.2 (Nat.lt_succ_self _)
  | foreign got =>
    obtain ⟨k1, t, q, rfl, k2, k3⟩ := k
    show Agrees (if record = [] then some (.foreign (t :: q), true)
      else some (.skip (t :: q) record, false)) _
    by_cases hr : record = []
    · subst hr
      rw [if_pos rfl]
      exact ⟨h, _, by rw [loop]; rfl, ⟨k1, t, q, rfl, k2, k3⟩, ti, by simp⟩
    · rw [if_neg hr]
      exact foreign_skip k1 ti hr rfl k2 k3 (Nat.lt_succ_self _)
  | stale f n =>
    obtain ⟨t, k1, k2, k3⟩ := k
    exact stuck_wait k1 ti k2 k3 (Nat.lt_succ_self _)

end S2A.Handler

namespace S2A.Record
open HalfConn (exec_bind_eq_ok)
open Handler (Knows TInv Agrees)
open Spec (Reader reader)

theorem knows_retrieved {h : Handler} {r : Reader} (k : Knows h r)
    (hne : h.messageType ≠ .ok Handler.kTicketType) :
    Knows { h with retrieved := true, numFull := 0, fullTickets := none } r := by
  cases r with
  | inside got => exact ⟨rel_retrieved k.1 hne, k.2⟩
  | foreign got => exact ⟨rel_retrieved k.1 hne, k.2⟩
  | stale f n =>
    obtain ⟨t, k1, k2⟩ := k
    exact ⟨t, ⟨k1.type, k1.ne, k1.hdr, k1.pos, k1.le, k1.cut⟩, k2⟩

theorem knows_send {c c' : Conn} {r : Reader} (k : Knows c.handler r)
    (h : retrieveAndSend c = .ok c') : Knows c'.handler r := by
  rcases retrieveAndSend_inv h with ⟨h1, _⟩ | ⟨_, h2, h3, _⟩
  · rw [h1]; exact k
  · rw [h3]; exact knows_retrieved k h2

theorem reader_append (hs : List Bytes) (content : Bytes) :
    reader (hs ++ [content]) =
      (reader hs).bind fun r => (r.hear content).map Prod.fst := by
  simp [reader]

/-- The handler of a connection is as `Spec.reader` says. -/
def Known (c : Conn) (hs : List Bytes) : Prop := ∃ r, reader hs = some r ∧ Knows c.handler r

theorem Known.handshake {L : Lib} {f : KeyFault} {c c' : Conn} {hs : List Bytes} {content : Bytes}
    {h' res st rekey} (k : Known c hs) (ti : TInv c.handler)
    (hp : c.handler.process content = .ok (h', res))
    (hr : handleResult L f { c with handler := h' } res = .ok (c', st, rekey)) :
    Known c' (hs ++ [content]) := by
  obtain ⟨r, k1, k2⟩ := k
  have hk : ∃ r', reader (hs ++ [content]) = some r' ∧ Knows h' r' := by
    have ha := k2.process ti content
    rw [hp] at ha
    rw [reader_append, k1, Option.bind_some]
    cases hx : r.hear content with
    | none => rw [hx] at ha; cases ha
    | some y =>
      obtain ⟨r', ok⟩ := y
      rw [hx] at ha
      obtain ⟨h1, res1, e, e1, _⟩ := ha
      cases e
      exact ⟨r', rfl, e1⟩
  obtain ⟨r', q1, q2⟩ := hk
  refine ⟨r', q1, ?_⟩
  rcases handleResult_cases hr with ⟨e, _, rfl, _⟩ | ⟨x, rfl, ⟨j, s, _, _, _, _, rfl⟩ | ⟨j, h, _⟩⟩
  · exact q2
  · exact q2
  · rcases handleTickets_cases h with ⟨_, rfl⟩ | ⟨h1, _, rfl⟩ | ⟨h1, h2, _, c1, h4, h5⟩
    · exact q2
    · exact q2
    · have := knows_send (c := { c with
        handler := h',
        expecting := x.expecting,
        inC := j,
        phase := .receiving }) q2 h4
      rw [h5]
      exact this

theorem Known.step {L : Lib} {a c evs c' op ev} (k : Known c (handshakes evs))
    (i : Inv a c (handshakes evs)) (h : step L c op = .ok (c', ev)) :
    Known c' (handshakes (evs ++ [ev])) := by
  rw [handshakes_snoc]
  rcases step_cases h with ⟨h1, h2, _⟩ | ⟨content, r, j, c1, h1, _, _, _, _, h2, h3, h4⟩ |
    ⟨content, f, r, j, h', res, st, h1, _, _, h2, h3⟩
  · obtain ⟨r, k1, k2⟩ := k
    refine ⟨r, ?_, by rw [h1.handler]; exact k2⟩
    rw [← k1]
    cases hh : heard1 ev with
    | none => simp
    | some t => simp [(h2 t hh).1]
  · rw [h1]
    simp only [Spec.appDataType, Spec.handshakeType, show (23 : UInt8) ≠ 22 by decide, if_false,
      List.append_nil]
    obtain ⟨r, k1, k2⟩ := k
    have := knows_send (c := { c with inC := j }) k2 h3
    exact ⟨r, k1, by rw [h4]; exact this⟩
  · rw [h1]
    simp only [if_true]
    exact Known.handshake (c := { c with inC := j }) k i.tinv h2 h3

theorem Reach.known {L : Lib} {a c evs} (h : Reach L a c evs) : Known c (handshakes evs) := by
  obtain ⟨c0, ops, h1, h2⟩ := h
  have h0 : Known c0 (handshakes []) :=
    ⟨.inside [], rfl, (Inv.created h1).sane rfl⟩
  have := run_snoc_induct (P := fun c evs => Inv a c (handshakes evs) ∧ Known c (handshakes evs))
    ⟨Inv.created h1, h0⟩
    (fun _ _ _ _ _ hp hs => ⟨hp.1.step hs, hp.2.step hp.1 hs⟩) h2
  exact this.2

end S2A.Record
