import Verif.Lemmas.HandshakeRecord
import Verif.Lemmas.HalfConnHist
import Verif.Spec.Heard
namespace S2A.Handler
open Spec
open HalfConn (exec_bind_eq_ok)

/-! ### States after a message that was out of order -/

theorem sizeInner_at {f : Bytes} {at_ : Nat} {sh : Int} {acc : Nat} {x}
    (h : sizeInner f at_ sh acc = .ok x) (hl : at_ + f.length ≤ 5) : x.1 = at_ + f.length := by
  induction f generalizing at_ sh acc with
  | nil => simp [sizeInner] at h; simp [← h]
  | cons b bs ih =>
    simp only [sizeInner] at h
    simp only [List.length_cons] at hl
    split at h
    · have := ih h (by omega); simp; omega
    · split at h
      · cases h
      · split at h
        · next h4 =>
          have h4' : at_ + 1 > 4 := h4
          cases h
          simp only [List.length_cons]; omega
        · have := ih h (by omega); simp; omega

theorem sizeOuter_append (pre post : List Bytes) (at_ : Nat) (sh : Int) (acc : Nat)
    (h : at_ + pre.flatten.length ≤ 5) :
    sizeOuter (pre ++ post) at_ sh acc =
      (sizeInner pre.flatten at_ sh acc >>= fun x => sizeOuter post x.1 x.2.1 x.2.2) := by
  induction pre generalizing at_ sh acc with
  | nil => simp [sizeInner]
  | cons f fs ih =>
    simp only [List.flatten_cons] at h ⊢
    rw [sizeInner_append _ _ _ _ _ h]
    simp only [List.cons_append, sizeOuter]
    simp only [List.length_append] at h
    cases hs : sizeInner f at_ sh acc with
    | error e => simp
    | ok x =>
      have := sizeInner_at hs (by omega)
      simp only [exec_bind_ok]
      exact ih _ _ _ (by omega)

/-- More than one header's worth of bytes before the body: a negative shift. -/
theorem sizeOuter_stuck {pre post : List Bytes} {b : Bytes} (hl : pre.flatten.length = 4)
    (hne : ∀ f ∈ post, f ≠ []) (hb : b ≠ []) :
    sizeOuter (pre ++ post ++ [b]) 1 16 0 = .error .negativeShift := by
  rw [List.append_assoc, sizeOuter_append _ _ _ _ _ (by omega)]
  match hp : pre.flatten, hl with
  | [t, x, y, z], _ =>
    have e : sizeInner [t, x, y, z] 1 16 0 =
        .ok (5, -8, ((0 ||| x.toNat <<< 16) ||| y.toNat <<< 8) ||| z.toNat <<< 0) := rfl
    rw [e]
    simp only [exec_bind_ok]
    obtain ⟨g, gs, hg, hgne⟩ : ∃ g gs, post ++ [b] = g :: gs ∧ g ≠ [] := by
      cases post with
      | nil => exact ⟨b, [], rfl, hb⟩
      | cons g gs => exact ⟨g, gs ++ [b], rfl, hne g (by simp)⟩
    rw [hg]
    cases g with
    | nil => exact absurd rfl hgne
    | cons y ys => rfl

theorem fragments_ne_of_type {h : Handler} {t : UInt8} (ht : h.messageType = .ok t) :
    h.fragments ≠ [] := by
  intro h0
  simp [messageType, h0] at ht

theorem expecting_of_type {h : Handler} {t : UInt8} (ht : h.messageType = .ok t) :
    h.expectingMore = true := by
  have := fragments_ne_of_type ht
  simpa [expectingMore] using this

theorem messageType_append {h h' : Handler} {t : UInt8} {l : List Bytes}
    (ht : h.messageType = .ok t) (hf : h'.fragments = h.fragments ++ l) :
    h'.messageType = .ok t := by
  unfold messageType at *
  rw [hf]
  cases hfr : h.fragments with
  | nil => rw [hfr] at ht; cases ht
  | cons f fs =>
    rw [hfr] at ht
    cases f with
    | nil => cases ht
    | cons x xs => exact ht

theorem store_grows {h h' : Handler} {b : Bytes} (hs : h.store b = .ok h') :
    (∃ l, h'.fragments = h.fragments ++ l) ∧ Same h h' := by
  unfold store at hs
  split at hs
  · simp only [exec_bind_eq_ok] at hs
    obtain ⟨t, _, hs⟩ := hs
    split at hs
    · cases hs; exact ⟨⟨[], by simp⟩, rfl, rfl, rfl⟩
    · cases hs; exact ⟨⟨_, rfl⟩, rfl, rfl, rfl⟩
  · cases hs; exact ⟨⟨_, rfl⟩, rfl, rfl, rfl⟩

theorem readFragment_grows {h h' : Handler} {rest rest' : Bytes} {full : Bool}
    (hr : h.readFragment rest = .ok (h', rest', full)) :
    (∃ l, h'.fragments = h.fragments ++ l) ∧ Same h h' := by
  unfold readFragment at hr
  split at hr
  · split at hr
    · simp only [exec_bind_eq_ok] at hr
      obtain ⟨h1, e1, sz, _, e2⟩ := hr
      cases e2
      have := store_grows e1
      exact this
    · simp only [exec_bind_eq_ok] at hr
      obtain ⟨h1, e1, e2⟩ := hr
      cases e2
      have := store_grows e1
      exact this
  · split at hr
    · simp only [exec_bind_eq_ok] at hr
      obtain ⟨h1, e1, e2⟩ := hr
      cases e2
      have := store_grows e1
      exact this
    · simp only [exec_bind_eq_ok] at hr
      obtain ⟨h1, e1, e2⟩ := hr
      cases e2
      have := store_grows e1
      exact this

/-- Inside a message of unexpected type every further byte is an error. -/
theorem Alien.loop {h h' : Handler} {rest : Bytes} {fuel : Nat} {ku tk : Bool} {res}
    (ha : Alien h) (hl : Handler.loop fuel h rest ku tk = .ok (h', res)) :
    Alien h' ∧ Same h h' ∧
      ((rest = [] ∧ res = .ok ⟨true, ku, kInvalidKeyUpdateType, tk, h'.numFull⟩) ∨
       (rest ≠ [] ∧ res = .error .internal)) := by
  obtain ⟨t, h1, h2, h3⟩ := ha
  cases fuel with
  | zero => cases hl
  | succ fuel =>
    rw [Handler.loop] at hl
    by_cases hr : rest = []
    · subst hr
      simp only [List.isEmpty_nil, if_true, expecting_of_type h1] at hl
      cases hl
      exact ⟨⟨t, h1, h2, h3⟩, ⟨rfl, rfl, rfl⟩, Or.inl ⟨rfl, rfl⟩⟩
    · rw [if_neg (by simpa using hr)] at hl
      simp only [exec_bind_eq_ok] at hl
      obtain ⟨⟨h4, rest', full⟩, e1, t', e2, e3⟩ := hl
      obtain ⟨⟨l, g1⟩, g2⟩ := readFragment_grows e1
      have e2' := messageType_append h1 g1
      rw [e2'] at e2
      cases e2
      simp only [h2, h3, if_false] at e3
      cases e3
      exact ⟨⟨t, e2', h2, h3⟩, g2, Or.inr ⟨hr, rfl⟩⟩

/-- The stuck handler swallows up to three bytes; the fourth is a negative shift. -/
theorem Stuck.loop {h h' : Handler} {t : UInt8} {rest : Bytes} {fuel : Nat} {ku tk : Bool} {res}
    (ha : Stuck h t) (hty : t = kTicketType ∨ t = kKeyUpdateType)
    (hl : Handler.loop fuel h rest ku tk = .ok (h', res)) :
    Stuck h' t ∧ Same h h' ∧
      res = .ok ⟨true, ku || (!rest.isEmpty && t == kKeyUpdateType), kInvalidKeyUpdateType,
        tk || (!rest.isEmpty && t == kTicketType), h'.numFull⟩ := by
  cases fuel with
  | zero => cases hl
  | succ fuel =>
    by_cases hr : rest = []
    · subst hr
      rw [Handler.loop] at hl
      simp only [List.isEmpty_nil, if_true, expecting_of_type ha.type] at hl
      cases hl
      exact ⟨ha, ⟨rfl, rfl, rfl⟩, by simp⟩
    · obtain ⟨pre, post, c1, c2⟩ := ha.cut
      have hpost : ∀ f ∈ post, f ≠ [] := fun f hf => ha.ne f (by rw [c1]; simp [hf])
      by_cases hlen : h.hdrExp ≤ rest.length
      · exfalso
        rw [Handler.loop, if_neg (by simpa using hr), readFragment, if_pos ha.hdr,
          if_pos hlen] at hl
        simp only [store_hdr ha.hdr, exec_bind_ok] at hl
        have : ({ h with fragments := h.fragments ++ [rest.take h.hdrExp], hdrExp := kHeaderLen }
            : Handler).dataSizeFromHeader = .error .negativeShift := by
          unfold dataSizeFromHeader
          simp only [c1]
          refine sizeOuter_stuck c2 hpost ?_
          intro h0
          have := congrArg List.length h0
          simp at this
          rcases this with this | this
          · have := ha.pos; omega
          · exact hr this
        simp only [this] at hl
        cases hl
      · have hread : h.readFragment rest = .ok ({ h with fragments := h.fragments ++ [rest], hdrExp := h.hdrExp - rest.length }, [], false) := by
          rw [readFragment, if_pos ha.hdr, if_neg hlen, store_hdr ha.hdr]
          rfl
        have hs : Stuck ({ h with fragments := h.fragments ++ [rest], hdrExp := h.hdrExp - rest.length } : Handler) t := by
          refine ⟨messageType_append (l := [rest]) ha.type rfl, ?_, ha.hdr, ?_, ?_, pre, post ++ [rest], by simp [c1], c2⟩
          · intro f hf
            rcases List.mem_append.1 hf with hf | hf
            · exact ha.ne f hf
            · simp at hf; subst hf; exact hr
          · show 0 < h.hdrExp - rest.length
            omega
          · show h.hdrExp - rest.length ≤ 4
            have := ha.le; omega
        rw [loop_partial hr hread hs.type] at hl
        have hre : rest.isEmpty = false := by simpa using hr
        have fin : ∀ fuel ku tk, Handler.loop fuel { h with fragments := h.fragments ++ [rest], hdrExp := h.hdrExp - rest.length } [] ku tk = .ok (h', res) →
            h' = { h with fragments := h.fragments ++ [rest], hdrExp := h.hdrExp - rest.length } ∧ res = .ok ⟨true, ku, kInvalidKeyUpdateType, tk, h'.numFull⟩ := by
          intro fuel ku tk hl
          cases fuel with
          | zero => cases hl
          | succ fuel =>
            rw [Handler.loop] at hl
            simp only [List.isEmpty_nil, if_true, expecting_of_type hs.type] at hl
            cases hl
            exact ⟨rfl, rfl⟩
        rcases hty with rfl | rfl
        · rw [if_neg (by decide), if_pos rfl] at hl
          obtain ⟨rfl, rfl⟩ := fin _ _ _ hl
          exact ⟨hs, ⟨rfl, rfl, rfl⟩, by simp [hre, kTicketType, kKeyUpdateType]⟩
        · rw [if_pos rfl] at hl
          obtain ⟨rfl, rfl⟩ := fin _ _ _ hl
          exact ⟨hs, ⟨rfl, rfl, rfl⟩, by simp [hre, kTicketType, kKeyUpdateType]⟩

/-- The states after something out of order. -/
def Wedged (h : Handler) : Prop :=
  Alien h ∨ ∃ t, Stuck h t ∧ (t = kTicketType ∨ t = kKeyUpdateType)

theorem Wedged.type {h : Handler} (w : Wedged h) : ∃ t, h.messageType = .ok t := by
  rcases w with ⟨t, h1, _⟩ | ⟨t, h1, _⟩
  · exact ⟨t, h1⟩
  · exact ⟨t, h1.type⟩

/-- Once wedged, the handler stays so and its ticket store does not change. -/
theorem Wedged.loop {h h' : Handler} {rest : Bytes} {fuel : Nat} {ku tk : Bool} {res}
    (w : Wedged h) (hl : Handler.loop fuel h rest ku tk = .ok (h', res)) :
    Wedged h' ∧ Same h h' ∧ h'.messageType = h.messageType ∧
      ∀ x, res = .ok x → x.expecting = true ∧ x.numFull = h'.numFull ∧
        (x.containsTicket = true → tk = true ∨ h'.messageType = .ok kTicketType) := by
  rcases w with ⟨t, h1, h2, h3⟩ | ⟨t, h1, h2⟩
  · obtain ⟨a, b, c⟩ := Alien.loop ⟨t, h1, h2, h3⟩ hl
    have hm : h'.messageType = h.messageType := by
      cases fuel with
      | zero => cases hl
      | succ fuel =>
        rw [Handler.loop] at hl
        by_cases hr : rest = []
        · subst hr
          simp only [List.isEmpty_nil, if_true] at hl
          cases hl; rfl
        · rw [if_neg (by simpa using hr)] at hl
          simp only [exec_bind_eq_ok] at hl
          obtain ⟨⟨h4, rest', full⟩, e1, t', e2, e3⟩ := hl
          obtain ⟨⟨l, g1⟩, g2⟩ := readFragment_grows e1
          have e2' := messageType_append h1 g1
          rw [e2'] at e2
          cases e2
          simp only [h2, h3, if_false] at e3
          cases e3
          rw [e2', h1]
    refine ⟨Or.inl a, b, hm, ?_⟩
    rintro x rfl
    rcases c with ⟨_, c⟩ | ⟨_, c⟩
    · cases c; exact ⟨rfl, rfl, Or.inl⟩
    · cases c
  · obtain ⟨a, b, c⟩ := h1.loop h2 hl
    refine ⟨Or.inr ⟨t, a, h2⟩, b, by rw [a.type, h1.type], ?_⟩
    rintro x rfl
    cases c
    refine ⟨rfl, rfl, ?_⟩
    simp only [Bool.or_eq_true, Bool.and_eq_true, beq_iff_eq]
    rintro (h | ⟨_, rfl⟩)
    · exact Or.inl h
    · exact Or.inr a.type

theorem Same.tinv {h h' : Handler} (s : Same h h') (ti : TInv h) : TInv h' := by
  obtain ⟨a, b, c⟩ := s
  unfold TInv
  rw [a, b, c]
  exact ti

theorem Same.stored {h h' : Handler} (s : Same h h') : Handler.stored h' = Handler.stored h :=
  stored_eq s.1

theorem tickets_takeWhile (ms : List Bytes) : tickets (ms.takeWhile isTicket) = ms.takeWhile isTicket := by
  unfold tickets
  rw [List.filter_eq_self]
  intro m hm
  have := List.all_takeWhile (p := isTicket) (l := ms)
  rw [List.all_eq_true] at this
  have := this m hm
  simp only [isTicket, Bool.and_eq_true] at this
  exact this.1

/-- A record with something out of order. -/
theorem loop_disorder {h h' : Handler} {p rest : Bytes} {ms : List Bytes} {q : Bytes} {fuel : Nat}
    {ku tk : Bool} {res} (r : Rel h p) (ti : TInv h) (hs : hsSplit (p ++ rest) = (ms, q))
    (hf : rest.length < fuel)
    (hp : p = [] ∨ p.head? = some ticketType ∨ p.head? = some updateType)
    (hv : verdict ms q ≠ .accept) (hl : loop fuel h rest ku tk = .ok (h', res)) :
    Wedged h' ∧ TInv h' ∧ h'.retrieved = h.retrieved ∧
      stored h' = keep h (ms.takeWhile isTicket) ∧
      (∀ x, res = .ok x → x.expecting = true ∧ x.numFull = h'.numFull ∧
        (h.retrieved = false → x.containsTicket = true →
          tk = true ∨ stored h' ≠ [] ∨ h'.messageType = .ok kTicketType)) ∧
      ∀ m ms', ms = m :: ms' → m.head? = some ticketType → m.length = 4 →
        h'.messageType = .ok kTicketType := by
  have k4 : kTicketType = ticketType := rfl
  have k24 : kKeyUpdateType = updateType := rfl
  induction ms generalizing h p rest fuel ku tk with
  | nil =>
    rcases hsSplit_inv _ _ _ hs with ⟨_, rfl, hi⟩ | ⟨m, ms', s1, h1, _⟩
    · by_cases hr : rest = []
      · subst hr
        simp only [List.append_nil] at hv
        unfold verdict at hv
        rw [if_pos hp] at hv
        exact absurd rfl hv
      · obtain ⟨t, q', hq⟩ : ∃ t q', p ++ rest = t :: q' := by
          cases hpr : p ++ rest with
          | nil => simp at hpr; exact absurd hpr.2 hr
          | cons t q' => exact ⟨t, q', rfl⟩
        by_cases hty : t = kTicketType ∨ t = kKeyUpdateType
        · exfalso
          apply hv
          unfold verdict
          rw [if_pos (by rw [hq]; right; simpa [k4, k24] using hty)]
        · obtain ⟨h1, a, b, c⟩ := refuse_type (ku := ku) (tk := tk) r hr hq hf
            (fun h => hty (Or.inl h)) (fun h => hty (Or.inr h))
          rw [a] at hl
          cases hl
          refine ⟨Or.inl b, c.tinv ti, c.2.2, ?_, by simp, by simp⟩
          rw [c.stored, List.takeWhile_nil, keep_nil ti]
    · cases h1
  | cons m ms ih =>
    rcases hsSplit_inv _ _ _ hs with ⟨h0, _⟩ | ⟨m', ms', s1, h1, h2, h3, h4, h5⟩
    · cases h0
    · cases h1
      have hpm := prefix_lt r.incomplete h2 h4 h5
      have hr := rest_nil_of h2 hpm
      have hre : rest.isEmpty = false := by simpa using hr
      obtain ⟨t, m', rfl⟩ : ∃ t m', m = t :: m' := by
        cases m with
        | nil => simp at h5
        | cons t m' => exact ⟨t, m', rfl⟩
      by_cases hty : t = kTicketType ∨ t = kKeyUpdateType
      · by_cases hl4 : (t :: m').length = 4
        · -- empty body
          match m', hl4 with
          | [x, y, z], hl4 =>
            obtain ⟨fuel, rfl⟩ : ∃ k, fuel = k + 1 := ⟨fuel - 1, by omega⟩
            have hz : len24 x y z = 0 := by
              simp [bodyLen] at h4; omega
            have hp4 : p.length < 4 := by simpa using hpm
            obtain ⟨g, e1, e2, e3, e4, e5, e6, e7, e8, e9⟩ :=
              read_hdr_zero (rest' := s1) r hp4 (by rw [h2]; rfl) hz
            have hst : Stuck g t := ⟨e2, e8, e6, by omega, by omega, g.fragments, [], by simp, e9⟩
            have hsame : Same h g := ⟨e3, e4, e5⟩
            have htw : ([t, x, y, z] :: ms).takeWhile isTicket = [] := by
              simp [List.takeWhile_cons, isTicket]
            rw [htw, keep_nil ti]
            rw [loop_partial hr e1 e2] at hl
            rcases hty with rfl | rfl
            · rw [if_neg (by decide), if_pos rfl] at hl
              obtain ⟨b1, b2, b3⟩ := hst.loop (Or.inl rfl) hl
              refine ⟨Or.inr ⟨_, b1, Or.inl rfl⟩, b2.tinv (hsame.tinv ti), by rw [b2.2.2, e5],
                by rw [b2.stored, hsame.stored], ?_, fun _ _ _ _ _ => b1.type⟩
              rintro x rfl
              cases b3
              exact ⟨rfl, rfl, fun _ _ => Or.inr (Or.inr b1.type)⟩
            · rw [if_pos rfl] at hl
              obtain ⟨b1, b2, b3⟩ := hst.loop (Or.inr rfl) hl
              refine ⟨Or.inr ⟨_, b1, Or.inr rfl⟩, b2.tinv (hsame.tinv ti), by rw [b2.2.2, e5],
                by rw [b2.stored, hsame.stored], ?_, ?_⟩
              rotate_left
              · intro m ms' h h'
                cases h
                simp [kKeyUpdateType, ticketType] at h'
              rintro x rfl
              cases b3
              refine ⟨rfl, rfl, fun _ h => Or.inl ?_⟩
              simpa [kTicketType, kKeyUpdateType] using h
        · rcases hty with rfl | rfl
          · -- a ticket
            obtain ⟨h1, fuel1, b1, b2, b3, b4, b5, b6⟩ :=
              consume_ticket (ku := ku) (tk := tk) r ti ⟨rfl, h4, by omega⟩ h2 hpm hf
            have hv' : verdict ((kTicketType :: m') :: ms) q = verdict ms q := by
              rw [verdict, if_pos (by simp [k4]), if_neg hl4]
            rw [hv'] at hv
            rw [b1] at hl
            obtain ⟨i1, i2, i3, i4, i5, _⟩ := ih b3 b4 (by simpa using h3) b2 (Or.inl rfl) hv hl
            have htw : ((kTicketType :: m') :: ms).takeWhile isTicket =
                (kTicketType :: m') :: ms.takeWhile isTicket := by
              rw [List.takeWhile_cons, if_pos]
              simp only [isTicket, List.head?_cons, k4, BEq.rfl, Bool.true_and, bne_iff_ne]
              exact hl4
            have hst : stored h' = keep h ((kTicketType :: m') :: ms.takeWhile isTicket) := by
              rw [i4]
              exact keep_step rfl b5 b6 ti
            refine ⟨i1, i2, by rw [i3, b5], by rw [htw, hst], ?_, ?_⟩
            rotate_left
            · intro m ms' h _ h'
              cases h
              exact absurd h' hl4
            intro x hx
            obtain ⟨j1, j2, _⟩ := i5 x hx
            refine ⟨j1, j2, fun hret _ => Or.inr (Or.inl ?_)⟩
            rw [hst]
            unfold keep
            rw [hret, tickets_cons_ticket rfl]
            simp
          · -- a key update
            have htw : ((kKeyUpdateType :: m') :: ms).takeWhile isTicket = [] := by
              rw [List.takeWhile_cons, if_neg]
              simp [isTicket, kKeyUpdateType, ticketType]
            rw [htw, keep_nil ti]
            by_cases hend : s1 = []
            · subst hend
              rw [hsSplit_nil] at h3
              cases h3
              exfalso
              apply hv
              rw [verdict, if_neg (by simp [kKeyUpdateType, ticketType]), if_pos (by simp [k24]), if_neg hl4,
                  if_pos ⟨rfl, rfl⟩]
            · obtain ⟨g, b1, b2, b3⟩ := refuse_keyUpdate (ku := ku) (tk := tk) r ⟨rfl, h4, by omega⟩ h2
                hend hpm hf
              rw [b1] at hl
              cases hl
              refine ⟨Or.inr ⟨_, b2, Or.inr rfl⟩, b3.tinv ti, b3.2.2, b3.stored, by simp, ?_⟩
              intro m ms' h _ h'
              cases h
              exact absurd h' hl4
      · obtain ⟨g, a, b, c⟩ := refuse_type (ku := ku) (tk := tk) r hr (by rw [h2]; rfl) hf
          (fun h => hty (Or.inl h)) (fun h => hty (Or.inr h))
        rw [a] at hl
        cases hl
        refine ⟨Or.inl b, c.tinv ti, c.2.2, ?_, by simp, ?_⟩
        rotate_left
        · intro m ms' h h'
          cases h
          simp at h'
          exact absurd (Or.inl h') hty
        have htw : ((t :: m') :: ms).takeWhile isTicket = [] := by
          rw [List.takeWhile_cons, if_neg]
          simp only [isTicket, List.head?_cons, ← k4]
          intro hh
          simp at hh
          exact hty (Or.inl hh.1)
        rw [c.stored, htw, keep_nil ti]

end S2A.Handler
