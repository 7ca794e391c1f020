import Verif.Lemmas.Wedge
import Verif.Lemmas.Reach
namespace S2A.Record
open HalfConn (exec_bind_eq_ok AeadCall)
open Handler (Rel TInv Wedged stored keep)
open Spec (View view isTicket hsSplit verdict ticketType updateType)

/-! ### Shape of an `Unprotect` call -/

theorem lastNonzero_le {b : Bytes} {w : Nat} {o} (h : lastNonzero b w = .ok o) :
    w ≤ b.length := by
  cases w with
  | zero => simp
  | succ i =>
    rw [lastNonzero] at h
    split at h
    · cases h
    · next x hx =>
      have := List.getElem?_eq_some_iff.1 hx
      obtain ⟨h1, _⟩ := this
      omega

theorem unprotect_shape {L : Lib} {f : Fault} {c c' : Conn} {header payload out r}
    (h : unprotect L f c header payload out = .ok (c', r)) :
    (r.inner = none ∧ r.rekey = none ∧ r.code ≠ .ok ∧ ∃ i, c' = { c with inC := i }) ∨
    ∃ i call p tail, c.closeNotify = false ∧
      dispatch L f.key { c with inC := i } call (p ++ tail) p.length = .ok (c', r) := by
  unfold unprotect at h
  split at h
  · cases h; exact Or.inl ⟨rfl, rfl, by simp, c.inC, rfl⟩
  next hcn =>
  simp only at h
  split at h
  · cases h; exact Or.inl ⟨rfl, rfl, by simp, c.inC, rfl⟩
  split at h
  · cases h; exact Or.inl ⟨rfl, rfl, by simp, c.inC, rfl⟩
  split at h
  · cases h; exact Or.inl ⟨rfl, rfl, by simp, c.inC, rfl⟩
  simp only [exec_bind_eq_ok] at h
  obtain ⟨⟨i, call, r'⟩, h1, h2⟩ := h
  simp only at h2
  split at h2
  · simp only [exec_bind_eq_ok] at h2
    obtain ⟨z, _, h3⟩ := h2
    cases h3
    exact Or.inl ⟨rfl, rfl, by simp, i, rfl⟩
  · split at h2
    · cases h2
    · next pt _ =>
      right
      have hw : r'.written ≤ pt.length := by
        have h3 := h2
        unfold dispatch at h3
        simp only [exec_bind_eq_ok] at h3
        obtain ⟨o, h4, _⟩ := h3
        exact lastNonzero_le h4
      refine ⟨i, call, pt.take r'.written, pt.drop r'.written, by simpa using hcn, ?_⟩
      rw [List.take_append_drop, List.length_take, Nat.min_eq_left hw]
      exact h2

/-! ### What is heard -/

theorem heard_append (e1 e2 : List Event) : heard (e1 ++ e2) = heard e1 ++ heard e2 := by
  simp [heard]

theorem handshakes_append (e1 e2 : List Event) :
    handshakes (e1 ++ e2) = handshakes e1 ++ handshakes e2 := by
  simp [handshakes, heard_append]

theorem view_append (hs : List Bytes) (r : Bytes) : view (hs ++ [r]) = (view hs).hear r := by
  simp [view]

/-- Facts about the ticket store of a connection that has heard the handshake records `hs`. -/
structure Inv (a : CreateArgs) (c : Conn) (hs : List Bytes) : Prop where
  tinv : TInv c.handler
  sane : (view hs).sane = true → Rel c.handler (view hs).rest ∧
    ((view hs).rest = [] ∨ (view hs).rest.head? = some ticketType ∨
      (view hs).rest.head? = some updateType)
  wedged : (view hs).sane = false → Wedged c.handler
  kept : c.handler.retrieved = false → c.sent = [] ∧
    stored c.handler = (view hs).tickets.take 5 ∧ c.hasFactory = a.hasFactory
  sent : c.handler.retrieved = true → c.phase = .done ∧ ∃ hs1, hs1 <+: hs ∧
    (view hs1).tickets ≠ [] ∧
    c.sent = [⟨a.url, a.connectionId, a.localIdentity, (view hs1).tickets.take 5, a.hasFactory⟩]
  fixed : c.url = a.url ∧ c.connectionId = a.connectionId ∧ c.localIdentity = a.localIdentity
  receiving : c.phase = .receiving →
    stored c.handler ≠ [] ∨ c.handler.messageType = .ok Handler.kTicketType

theorem Inv.created {L : Lib} {a c} (h : Created L a c) : Inv a c [] := by
  obtain ⟨fi, fo, h⟩ := h
  have hh : c.handler = .init ∧ c.phase = .notReceived ∧ c.sent = [] ∧
      c.hasFactory = a.hasFactory ∧ c.url = a.url ∧ c.connectionId = a.connectionId ∧
      c.localIdentity = a.localIdentity := by
    unfold create at h
    split at h
    · cases h
    split at h
    · cases h
    split at h
    · cases h
    split at h
    · cases h
    simp only [exec_bind_eq_ok] at h
    obtain ⟨ri, _, h⟩ := h
    cases ri with
    | error e => cases h
    | ok i =>
      simp only [exec_bind_eq_ok] at h
      obtain ⟨ro, _, h⟩ := h
      cases ro with
      | error e => cases h
      | ok o => cases h; simp
  obtain ⟨h1, h2, h3, h4, h5⟩ := hh
  refine ⟨by rw [h1]; exact Handler.init_tinv, ?_, ?_, ?_, ?_, h5, ?_⟩
  · intro _
    rw [h1]
    exact ⟨Handler.init_rel, Or.inl rfl⟩
  · intro h; cases h
  · intro _
    rw [h1]
    exact ⟨h3, rfl, h4⟩
  · rw [h1]; intro h; cases h
  · rw [h2]; intro h; cases h

/-- A call that leaves the handshake part of the state alone. -/
structure Calm (c c' : Conn) : Prop where
  handler : c'.handler = c.handler
  phase : c'.phase = c.phase
  expecting : c'.expecting = c.expecting
  sent : c'.sent = c.sent
  hasFactory : c'.hasFactory = c.hasFactory
  url : c'.url = c.url
  connectionId : c'.connectionId = c.connectionId
  localIdentity : c'.localIdentity = c.localIdentity

theorem Calm.inv {a c c' hs} (h : Calm c c') (i : Inv a c hs) : Inv a c' hs := by
  obtain ⟨h1, h2, h3, h4, h5, h6, h7, h8⟩ := h
  obtain ⟨i1, i2, i3, i4, i5, i6, i7⟩ := i
  constructor <;> simp only [h1, h2, h3, h4, h5, h6, h7, h8] <;> assumption

/-! ### Sending -/

theorem retrieveAndSend_inv {c c' : Conn} (h : retrieveAndSend c = .ok c') :
    (c'.handler = c.handler ∧ c'.sent = c.sent ∧ c'.hasFactory = c.hasFactory ∧
      (c.handler.retrieved = true ∨ c.handler.messageType = .ok Handler.kTicketType)) ∨
    (c.handler.retrieved = false ∧ c.handler.messageType ≠ .ok Handler.kTicketType ∧
      c'.handler = { c.handler with retrieved := true, numFull := 0, fullTickets := none } ∧
      c'.hasFactory = false ∧
      c'.sent = c.sent ++ [⟨c.url, c.connectionId, c.localIdentity, stored c.handler,
        c.hasFactory⟩]) := by
  unfold retrieveAndSend at h
  simp only [exec_bind_eq_ok] at h
  obtain ⟨⟨h1, r⟩, h2, h3⟩ := h
  unfold Handler.getStoredTickets at h2
  split at h2
  · next hr => cases h2; cases h3; exact Or.inl ⟨rfl, rfl, rfl, Or.inl hr⟩
  next hr =>
  have hr : c.handler.retrieved = false := by simpa using hr
  by_cases he : c.handler.expectingMore = true
  · rw [if_pos he] at h2
    simp only [exec_bind_eq_ok] at h2
    obtain ⟨w, ⟨t, ht, hw⟩, h4⟩ := h2
    cases hw
    by_cases h5 : t = Handler.kTicketType
    · subst h5
      simp at h4
      obtain ⟨rfl, rfl⟩ := h4
      cases h3
      exact Or.inl ⟨rfl, rfl, rfl, Or.inr ht⟩
    · simp only [h5, decide_false] at h4
      right
      refine ⟨hr, by rw [ht]; intro h; cases h; exact h5 rfl, ?_⟩
      cases hf : c.handler.fullTickets with
      | none => rw [hf] at h4; cases h4
      | some ts =>
        rw [hf] at h4
        simp at h4
        obtain ⟨rfl, rfl⟩ := h4
        cases h3
        exact ⟨rfl, rfl, by simp [stored, hf]⟩
  · rw [if_neg he] at h2
    simp only [exec_pure, exec_bind_ok] at h2
    right
    refine ⟨hr, ?_, ?_⟩
    · intro ht
      exact he (Handler.expecting_of_type ht)
    · cases hf : c.handler.fullTickets with
      | none => rw [hf] at h2; cases h2
      | some ts =>
        rw [hf] at h2
        simp at h2
        obtain ⟨rfl, rfl⟩ := h2
        cases h3
        exact ⟨rfl, rfl, by simp [stored, hf]⟩

theorem tinv_retrieved {h : Handler} :
    TInv { h with retrieved := true, numFull := 0, fullTickets := none } :=
  Or.inl ⟨rfl, rfl, rfl⟩

theorem rel_retrieved {h : Handler} {p : Bytes} (r : Rel h p)
    (hne : h.messageType ≠ .ok Handler.kTicketType) :
    Rel { h with retrieved := true, numFull := 0, fullTickets := none } p := by
  refine ⟨r.ne, r.hdr, ?_, r.cut⟩
  intro h4
  obtain ⟨h1, h2, h3, h5, h6⟩ := r.dat h4
  refine ⟨h1, h2, h3, h5, ?_⟩
  cases p with
  | nil => simp at h4
  | cons t p =>
    have := r.type
    rw [this] at hne
    have ht : t ≠ Handler.kTicketType := fun h => hne (by rw [h])
    simp only [List.head?_cons, Option.some.injEq, ht, and_false, if_false] at h6 ⊢
    exact h6

theorem wedged_retrieved {h : Handler} (w : Wedged h) :
    Wedged { h with retrieved := true, numFull := 0, fullTickets := none } := by
  rcases w with ⟨t, h1⟩ | ⟨t, h1, h2⟩
  · exact Or.inl ⟨t, h1⟩
  · exact Or.inr ⟨t, ⟨h1.type, h1.ne, h1.hdr, h1.pos, h1.le, h1.cut⟩, h2⟩

theorem Inv.send {a c c' hs} (i : Inv a c hs) (hp : c.phase = .receiving)
    (h : retrieveAndSend c = .ok c') (c'' : Conn) (hc : c'' = { c' with phase := .done, expecting := c''.expecting }) :
    Inv a c'' hs := by
  obtain ⟨f1, f2, f3, f4, f5, f6, f7, f8⟩ := retrieveAndSend_frame h
  have g1 : c''.handler = c'.handler := by rw [hc]
  have g2 : c''.phase = .done := by rw [hc]
  have g3 : c''.sent = c'.sent := by rw [hc]
  have g4 : c''.hasFactory = c'.hasFactory := by rw [hc]
  have g5 : c''.url = c.url ∧ c''.connectionId = c.connectionId ∧
      c''.localIdentity = c.localIdentity := by rw [hc]; exact ⟨f6, f7, f8⟩
  have hr : c.handler.retrieved = false := by
    cases hr : c.handler.retrieved with
    | false => rfl
    | true => rw [(i.sent hr).1] at hp; cases hp
  obtain ⟨k1, k2, k3⟩ := i.kept hr
  have hfix : c''.url = a.url ∧ c''.connectionId = a.connectionId ∧
      c''.localIdentity = a.localIdentity := by
    rw [g5.1, g5.2.1, g5.2.2]; exact i.fixed
  rcases retrieveAndSend_inv h with ⟨h1, h2, h3, _⟩ | ⟨_, h2, h3, h4, h5⟩
  · constructor
    · rw [g1, h1]; exact i.tinv
    · rw [g1, h1]; exact i.sane
    · rw [g1, h1]; exact i.wedged
    · rw [g1, h1, g3, h2, g4, h3]; exact i.kept
    · rw [g1, h1, hr]; intro h; cases h
    · exact hfix
    · rw [g2]; intro h; cases h
  · constructor
    · rw [g1, h3]; exact tinv_retrieved
    · intro hv
      obtain ⟨j1, j2⟩ := i.sane hv
      rw [g1, h3]
      exact ⟨rel_retrieved j1 h2, j2⟩
    · intro hv; rw [g1, h3]; exact wedged_retrieved (i.wedged hv)
    · rw [g1, h3]; intro h; cases h
    · intro _
      refine ⟨g2, hs, List.prefix_refl hs, ?_, ?_⟩
      · intro h0
        rw [h0] at k2
        rcases i.receiving hp with h | h
        · exact h k2
        · exact h2 h
      · rw [g3, h5, k1, k2, k3]
        obtain ⟨e1, e2, e3⟩ := i.fixed
        rw [e1, e2, e3]
        rfl
    · exact hfix
    · rw [g2]; intro h; cases h

/-! ### Hearing a handshake record -/

/-- Handler state and result of processing one more handshake record. -/
theorem process_inv {a c hs} (i : Inv a c hs) {content : Bytes} {h' res}
    (hp : c.handler.process content = .ok (h', res)) :
    TInv h' ∧ h'.retrieved = c.handler.retrieved ∧
    ((view (hs ++ [content])).sane = true → Rel h' (view (hs ++ [content])).rest ∧
      ((view (hs ++ [content])).rest = [] ∨
       (view (hs ++ [content])).rest.head? = some ticketType ∨
       (view (hs ++ [content])).rest.head? = some updateType)) ∧
    ((view (hs ++ [content])).sane = false → Wedged h') ∧
    (c.handler.retrieved = false → stored h' = (view (hs ++ [content])).tickets.take 5) ∧
    (∀ x, res = .ok x → x.numFull = h'.numFull ∧ x.expecting = h'.expectingMore ∧
      (c.handler.retrieved = false → x.containsTicket = true →
        stored h' ≠ [] ∨ h'.messageType = .ok Handler.kTicketType)) ∧
    (c.handler.retrieved = false → stored c.handler ≠ [] ∨
        c.handler.messageType = .ok Handler.kTicketType →
      stored h' ≠ [] ∨ h'.messageType = .ok Handler.kTicketType) ∧
    ((view (hs ++ [content])).sane = true →
      ∃ x, res = .ok x ∧
        x.containsKeyUpdate = (!content.isEmpty && Spec.mentionsType updateType
          (hsSplit ((view hs).rest ++ content)).1 (view (hs ++ [content])).rest) ∧
        x.containsTicket = (!content.isEmpty && Spec.mentionsType ticketType
          (hsSplit ((view hs).rest ++ content)).1 (view (hs ++ [content])).rest)) := by
  rw [view_append]
  unfold Handler.process at hp
  cases hv : (view hs).sane with
  | false =>
    have hw := i.wedged hv
    obtain ⟨w1, w2, w3, w4⟩ := hw.loop hp
    have hh : (view hs).hear content = view hs := by simp [View.hear, hv]
    rw [hh, hv]
    refine ⟨w2.tinv i.tinv, w2.2.2, by simp, fun _ => w1, ?_, ?_, ?_, by simp⟩
    · intro hr; rw [w2.stored]; exact (i.kept hr).2.1
    · intro x hx
      obtain ⟨x1, x2, x3⟩ := w4 x hx
      obtain ⟨t, ht⟩ := w1.type
      refine ⟨x2, by rw [x1, Handler.expecting_of_type ht], fun _ hc => ?_⟩
      rcases x3 hc with h | h
      · cases h
      · exact Or.inr h
    · intro _ h
      rw [w2.stored, w3]
      exact h
  | true =>
    obtain ⟨r, hq⟩ := i.sane hv
    obtain ⟨ms, q, hs'⟩ : ∃ ms q, hsSplit ((view hs).rest ++ content) = (ms, q) := ⟨_, _, rfl⟩
    have hh : (view hs).hear content =
        ⟨(view hs).tickets ++ ms.takeWhile isTicket,
         (view hs).updates + (ms.filter fun m => m.head? == some updateType).length, q,
         verdict ms q == .accept⟩ := by
      simp [View.hear, hv, hs']
    rw [hh]
    simp only [hs']
    have hpend : c.handler.messageType = .ok Handler.kTicketType →
        (view hs).rest.head? = some ticketType := by
      intro ht
      cases hrest : (view hs).rest with
      | nil =>
        rw [hrest] at r
        have := r.expecting
        rw [Handler.expecting_of_type ht] at this
        cases this
      | cons t p =>
        rw [hrest] at r
        have := r.type
        rw [ht] at this
        cases this
        rfl
    have hkeep : c.handler.retrieved = false →
        keep c.handler (ms.takeWhile isTicket) =
          ((view hs).tickets ++ ms.takeWhile isTicket).take 5 := by
      intro hr
      unfold keep
      rw [hr, (i.kept hr).2.1, Handler.tickets_takeWhile]
      simp only [Bool.false_eq_true, if_false]
      exact Handler.take_take_append _ _ _
    have hmono : c.handler.retrieved = false → stored c.handler ≠ [] →
        keep c.handler (ms.takeWhile isTicket) ≠ [] := by
      intro hr hne h0
      unfold keep at h0
      rw [hr] at h0
      simp at h0
      exact hne h0.1
    -- the first complete message begins with the pending bytes
    have hfirst : c.handler.messageType = .ok Handler.kTicketType →
        (ms = [] ∧ q.head? = some ticketType) ∨
        ∃ m ms', ms = m :: ms' ∧ m.head? = some ticketType := by
      intro ht
      have h0 := hpend ht
      rcases Handler.hsSplit_inv _ _ _ hs' with ⟨h1, h2, _⟩ | ⟨m, ms', s1, h1, h2, _, _, h5⟩
      · left
        refine ⟨h1, ?_⟩
        rw [← h2]
        cases hrest : (view hs).rest with
        | nil => rw [hrest] at h0; cases h0
        | cons t p => rw [hrest] at h0; simpa using h0
      · right
        refine ⟨m, ms', h1, ?_⟩
        cases m with
        | nil => simp at h5
        | cons t m =>
          cases hrest : (view hs).rest with
          | nil => rw [hrest] at h0; cases h0
          | cons t' p =>
            rw [hrest] at h0 h2
            simp at h0 h2
            simp [← h2.1, h0]
    by_cases hacc : verdict ms q = .accept
    · obtain ⟨h1, e1, e2, e3, e4, e5⟩ :=
        (Handler.loop_verdict (ku := false) (tk := false) r i.tinv hs' (Nat.lt_succ_self _) hq).1 hacc
      rw [e1] at hp
      cases hp
      have htw : Spec.tickets ms = ms.takeWhile isTicket := by
        clear hh hs' hkeep hmono hfirst e1 e5
        induction ms with
        | nil => rfl
        | cons m ms ih =>
          unfold verdict at hacc
          by_cases hm : m.head? = some ticketType
          · rw [if_pos hm] at hacc
            by_cases hl : m.length = 4
            · rw [if_pos hl] at hacc; cases hacc
            · rw [if_neg hl] at hacc
              rw [Handler.tickets_cons_ticket hm, ih hacc, List.takeWhile_cons, if_pos]
              simp [isTicket, hm, hl]
          · rw [if_neg hm] at hacc
            rw [List.takeWhile_cons, if_neg (by simp [isTicket, hm])]
            by_cases hu : m.head? = some updateType
            · rw [if_pos hu] at hacc
              by_cases hl : m.length = 4
              · rw [if_pos hl] at hacc; cases hacc
              · rw [if_neg hl] at hacc
                by_cases hb : ms = [] ∧ q = []
                · rw [hb.1]; simp [Spec.tickets, hm]
                · rw [if_neg hb] at hacc; cases hacc
            · rw [if_neg hu] at hacc; cases hacc
      have hst : stored h' = keep c.handler (ms.takeWhile isTicket) := by
        rw [e5]
        unfold keep
        rw [htw, Handler.tickets_takeWhile]
      have hqty : q = [] ∨ q.head? = some ticketType ∨ q.head? = some updateType := by
        clear hh hs' hkeep hmono hfirst e1 e2 e5 htw hst
        induction ms with
        | nil =>
          unfold verdict at hacc
          by_cases hb : q = [] ∨ q.head? = some ticketType ∨ q.head? = some updateType
          · exact hb
          · rw [if_neg hb] at hacc; cases hacc
        | cons m ms ih =>
          unfold verdict at hacc
          split at hacc
          · split at hacc
            · cases hacc
            · exact ih hacc
          · split at hacc
            · split at hacc
              · cases hacc
              · split at hacc
                · next hb => exact Or.inl hb.2
                · cases hacc
            · cases hacc
      have hmty : q.head? = some ticketType → h'.messageType = .ok Handler.kTicketType := by
        intro hq1
        cases q with
        | nil => cases hq1
        | cons t q =>
          simp at hq1
          subst hq1
          exact e2.type
      refine ⟨e3, e4, fun _ => ⟨e2, hqty⟩, by simp [hacc], ?_, ?_, ?_, ?_⟩
      · intro hr; rw [hst, hkeep hr]
      · rintro x hx
        cases hx
        refine ⟨rfl, e2.expecting.symm, ?_⟩
        intro hr hc
        simp only [Bool.false_or, Bool.and_eq_true] at hc
        obtain ⟨_, hc⟩ := hc
        simp only [Spec.mentionsType, List.any_append, List.any_cons, List.any_nil, Bool.or_false,
          Bool.or_eq_true, beq_iff_eq] at hc
        rcases hc with hc | hc
        · left
          rw [e5]
          unfold keep
          rw [hr]
          obtain ⟨m, hm, hm'⟩ := List.any_eq_true.1 hc
          have : m ∈ Spec.tickets ms := by
            simp only [Spec.tickets, List.mem_filter]
            exact ⟨hm, hm'⟩
          intro h0
          simp at h0
          rw [h0.2] at this
          cases this
        · right; exact hmty hc
      · intro hr h
        rcases h with h | h
        · left; rw [hst]; exact hmono hr h
        · rcases hfirst h with ⟨_, h2⟩ | ⟨m, ms', rfl, h2⟩
          · right; exact hmty h2
          · left
            rw [e5]
            unfold keep
            rw [hr, Handler.tickets_cons_ticket h2]
            simp
      · intro _
        exact ⟨_, rfl, by simp, by simp⟩
    · obtain ⟨e1, e2, e3, e4, e5, e6⟩ :=
        Handler.loop_disorder r i.tinv hs' (Nat.lt_succ_self _) hq hacc hp
      refine ⟨e2, e3, by simp [hacc], fun _ => e1, ?_, ?_, ?_, by simp [hacc]⟩
      · intro hr; rw [e4, hkeep hr]
      · intro x hx
        obtain ⟨x1, x2, x3⟩ := e5 x hx
        obtain ⟨t, ht⟩ := e1.type
        refine ⟨x2, by rw [x1, Handler.expecting_of_type ht], fun hr hc => ?_⟩
        rcases x3 hr hc with h | h | h
        · cases h
        · exact Or.inl h
        · exact Or.inr h
      · intro hr h
        rcases h with h | h
        · left; rw [e4]; exact hmono hr h
        · rcases hfirst h with ⟨h1, h2⟩ | ⟨m, ms', h1, h2⟩
          · subst h1
            exfalso
            apply hacc
            rw [verdict, if_pos (Or.inr (Or.inl h2))]
          · by_cases hl : m.length = 4
            · right; exact e6 m ms' h1 h2 hl
            · left
              rw [e4]
              unfold keep
              have : isTicket m = true := by simp [isTicket, h2, hl]
              rw [hr, h1, List.takeWhile_cons, if_pos this, Handler.tickets_cons_ticket h2]
              simp

theorem handleTickets_cases {c c' : Conn} {r} (h : handleTickets c r = .ok c') :
    (c.phase = .done ∧ c' = c) ∨
    (c.phase ≠ .done ∧ ¬(r.containsTicket = true ∧ 5 ≤ r.numFull) ∧
      c' = { c with phase := if r.containsTicket then .receiving else c.phase }) ∨
    (c.phase ≠ .done ∧ r.containsTicket = true ∧ 5 ≤ r.numFull ∧
      ∃ c1, retrieveAndSend { c with phase := .receiving } = .ok c1 ∧
        c' = { c1 with expecting := false, phase := .done }) := by
  unfold handleTickets at h
  have key : c.phase ≠ .done →
      (if r.containsTicket && decide (r.numFull ≥ Handler.kMaxTickets) then do
        let c ← retrieveAndSend (if r.containsTicket then { c with phase := .receiving } else c)
        return { c with expecting := false, phase := .done }
      else .ok (if r.containsTicket then { c with phase := .receiving } else c)) = Except.ok c' →
      (c.phase = .done ∧ c' = c) ∨
      (c.phase ≠ .done ∧ ¬(r.containsTicket = true ∧ 5 ≤ r.numFull) ∧
        c' = { c with phase := if r.containsTicket then .receiving else c.phase }) ∨
      (c.phase ≠ .done ∧ r.containsTicket = true ∧ 5 ≤ r.numFull ∧
        ∃ c1, retrieveAndSend { c with phase := .receiving } = .ok c1 ∧
          c' = { c1 with expecting := false, phase := .done }) := by
    intro hp h
    right
    cases hk : r.containsTicket with
    | false =>
      rw [hk] at h
      simp only [Bool.false_and, Bool.false_eq_true, if_false] at h
      cases h
      exact Or.inl ⟨hp, by simp, by simp⟩
    | true =>
      rw [hk] at h
      simp only [Bool.true_and, if_true, decide_eq_true_eq] at h
      by_cases hn : r.numFull ≥ Handler.kMaxTickets
      · rw [if_pos hn] at h
        simp only [exec_bind_eq_ok] at h
        obtain ⟨c1, h1, h2⟩ := h
        cases h2
        exact Or.inr ⟨hp, rfl, hn, c1, h1, rfl⟩
      · rw [if_neg hn] at h
        cases h
        exact Or.inl ⟨hp, fun h => hn h.2, by simp⟩
  cases hp : c.phase with
  | done => rw [hp] at h; cases h; exact Or.inl ⟨rfl, rfl⟩
  | notReceived =>
    rw [hp] at h
    have := key (by simp [hp]) h
    rw [hp] at this
    exact this
  | receiving =>
    rw [hp] at h
    have := key (by simp [hp]) h
    rw [hp] at this
    exact this

theorem handleResult_cases {L : Lib} {f : KeyFault} {c c' : Conn} {res st rekey}
    (h : handleResult L f c res = .ok (c', st, rekey)) :
    (∃ e, res = .error e ∧ c' = c ∧ st = e ∧ rekey = none) ∨
    ∃ x, res = .ok x ∧
      ((∃ i s, s ≠ .ok ∧ x.containsKeyUpdate = true ∧ st = .internal ∧ rekey = some s ∧
        c' = { c with expecting := x.expecting, inC := i }) ∨
       (∃ i, handleTickets { c with expecting := x.expecting, inC := i } x = .ok c' ∧ st = .ok ∧
        rekey = if x.containsKeyUpdate then some .ok else none)) := by
  unfold handleResult at h
  cases res with
  | error e => cases h; exact Or.inl ⟨_, rfl, rfl, rfl, rfl⟩
  | ok x =>
    right
    refine ⟨x, rfl, ?_⟩
    simp only at h
    by_cases hk : x.containsKeyUpdate = true
    · rw [if_pos hk] at h
      simp only [exec_bind_eq_ok] at h
      obtain ⟨⟨i, s⟩, h1, h2⟩ := h
      simp only at h2
      by_cases hs : s ≠ .ok
      · rw [if_pos hs] at h2
        cases h2
        exact Or.inl ⟨i, s, hs, hk, rfl, rfl, rfl⟩
      · rw [if_neg hs] at h2
        have hs : s = .ok := Decidable.not_not.1 hs
        subst hs
        simp only [exec_bind_eq_ok] at h2
        obtain ⟨c1, h3, h4⟩ := h2
        cases h4
        exact Or.inr ⟨i, h3, rfl, by rw [if_pos hk]⟩
    · rw [if_neg hk] at h
      simp only [exec_bind_eq_ok] at h
      obtain ⟨c1, h3, h4⟩ := h
      cases h4
      exact Or.inr ⟨c.inC, h3, rfl, by rw [if_neg hk]⟩

/-- The invariant after the handler has read a record; the phase may have become
`receiving` if a ticket was seen. -/
theorem Inv.read {a c hs} (i : Inv a c hs) {content : Bytes} {h' res}
    (hp : c.handler.process content = .ok (h', res)) (c' : Conn) (hh : c'.handler = h')
    (hs' : c'.sent = c.sent) (hf : c'.hasFactory = c.hasFactory) (hu : c'.url = c.url)
    (hc : c'.connectionId = c.connectionId) (hl : c'.localIdentity = c.localIdentity)
    (hph : c'.phase = c.phase ∨ (c.phase ≠ .done ∧ c'.phase = .receiving ∧
      ∃ x, res = .ok x ∧ x.containsTicket = true)) :
    Inv a c' (hs ++ [content]) := by
  obtain ⟨p1, p2, p3, p4, p5, p6, p7, p8⟩ := process_inv i hp
  constructor
  · rw [hh]; exact p1
  · rw [hh]; exact p3
  · rw [hh]; exact p4
  · rw [hh, p2]
    intro hr
    obtain ⟨k1, k2, k3⟩ := i.kept hr
    exact ⟨by rw [hs', k1], p5 hr, by rw [hf, k3]⟩
  · rw [hh, p2]
    intro hr
    obtain ⟨k1, hs1, k2, k3, k4⟩ := i.sent hr
    refine ⟨?_, hs1, k2.trans (List.prefix_append _ _), k3, by rw [hs', k4]⟩
    rcases hph with h | ⟨h, _⟩
    · rw [h, k1]
    · exact absurd k1 h
  · rw [hu, hc, hl]; exact i.fixed
  · intro h
    rw [hh]
    have hr : ∀ ph, ph ≠ Phase.done → c.phase = ph → c.handler.retrieved = false := by
      intro ph h1 h2
      cases hr : c.handler.retrieved with
      | false => rfl
      | true => rw [(i.sent hr).1] at h2; exact absurd h2.symm h1
    rcases hph with h0 | ⟨h0, _, x, h1, h2⟩
    · have hc : c.phase = .receiving := by rw [← h0, h]
      exact p7 (hr _ (by simp) hc) (i.receiving hc)
    · exact (p6 x h1).2.2 (hr _ h0 rfl) h2

theorem Inv.handshake {L : Lib} {f : KeyFault} {a c hs} (i : Inv a c hs) {content : Bytes}
    {h' res c' st rekey} (hp : c.handler.process content = .ok (h', res))
    (hr : handleResult L f { c with handler := h' } res = .ok (c', st, rekey)) :
    Inv a c' (hs ++ [content]) := by
  rcases handleResult_cases hr with ⟨e, _, rfl, _⟩ | ⟨x, rfl, ⟨j, s, _, _, _, _, rfl⟩ | ⟨j, h, _⟩⟩
  · exact i.read hp _ rfl rfl rfl rfl rfl rfl (Or.inl rfl)
  · exact i.read hp _ rfl rfl rfl rfl rfl rfl (Or.inl rfl)
  · rcases handleTickets_cases h with ⟨_, rfl⟩ | ⟨h1, _, rfl⟩ | ⟨h1, h2, _, c1, h4, h5⟩
    · exact i.read hp _ rfl rfl rfl rfl rfl rfl (Or.inl rfl)
    · refine i.read hp _ rfl rfl rfl rfl rfl rfl ?_
      cases hk : x.containsTicket with
      | false => exact Or.inl (by simp)
      | true => exact Or.inr ⟨h1, by simp, x, rfl, hk⟩
    · have := i.read hp { c with handler := h', expecting := x.expecting, inC := j, phase := .receiving }
        rfl rfl rfl rfl rfl rfl (Or.inr ⟨h1, rfl, x, rfl, h2⟩)
      exact this.send rfl h4 c' (by rw [h5])

/-- What is heard in one event. -/
def heard1 : Event → Option (Bytes × UInt8)
  | .opened r => r.inner.bind Spec.unpad
  | _ => none

theorem heard_snoc (evs : List Event) (e : Event) :
    heard (evs ++ [e]) = heard evs ++ (heard1 e).toList := by
  rw [heard_append]
  refine congrArg _ ?_
  cases e with
  | opened r =>
    simp only [heard, heard1, Result.record, List.filterMap_cons, List.filterMap_nil]
    cases r.inner.bind Spec.unpad <;> rfl
  | sealed r => rfl
  | outboundUpdated s => rfl

/-- One call, by what is heard in it. -/
theorem step_cases {L : Lib} {c c' : Conn} {op ev} (h : step L c op = .ok (c', ev)) :
    (Calm c c' ∧ (∀ t, heard1 ev = some t → t.2 ≠ Spec.handshakeType ∧
        (t.2 = Spec.appDataType → c.expecting = true ∨ c.phase ≠ .receiving)) ∧
      ∀ r, ev = .opened r → r.rekey = none) ∨
    (∃ content r i c1, heard1 ev = some (content, Spec.appDataType) ∧ ev = .opened r ∧
      r.code = .ok ∧ r.rekey = none ∧ c.expecting = false ∧ c.phase = .receiving ∧
      retrieveAndSend { c with inC := i } = .ok c1 ∧ c' = { c1 with phase := .done }) ∨
    (∃ content f r i h' res st, heard1 ev = some (content, Spec.handshakeType) ∧ ev = .opened r ∧
      (r.code = .ok ↔ st = .ok) ∧ c.handler.process content = .ok (h', res) ∧
      handleResult L f { c with inC := i, handler := h' } res = .ok (c', st, r.rekey)) := by
  cases op with
  | protect f rt pt rec =>
    simp only [step, exec_bind_eq_ok] at h
    obtain ⟨⟨c1, r⟩, h1, h2⟩ := h
    cases h2
    have ho := (protect_frame h1).1
    simp only
    generalize c1.outC = o at ho
    subst ho
    exact Or.inl ⟨⟨rfl, rfl, rfl, rfl, rfl, rfl, rfl, rfl⟩, by simp [heard1], by simp⟩
  | updateOutboundKey f =>
    simp only [step, updateOutboundKey, exec_bind_eq_ok] at h
    obtain ⟨⟨c1, r⟩, ⟨⟨o, s⟩, _, h1⟩, h2⟩ := h
    cases h1
    cases h2
    exact Or.inl ⟨⟨rfl, rfl, rfl, rfl, rfl, rfl, rfl, rfl⟩, by simp [heard1], by simp⟩
  | unprotect f hdr pl out =>
    simp only [step, exec_bind_eq_ok] at h
    obtain ⟨⟨c1, r⟩, h1, h2⟩ := h
    cases h2
    rcases unprotect_shape h1 with ⟨h2, h3, h4, i, rfl⟩ | ⟨i, call, p, tail, hcn, h2⟩
    · exact Or.inl ⟨⟨rfl, rfl, rfl, rfl, rfl, rfl, rfl, rfl⟩, by simp [heard1, h2], by rintro _ ⟨⟩; exact h3⟩
    · cases hu : Spec.unpad p with
      | none =>
        rw [dispatch_none _ _ _ _ _ _ hu] at h2
        cases h2
        exact Or.inl ⟨⟨rfl, rfl, rfl, rfl, rfl, rfl, rfl, rfl⟩, by simp [heard1, hu],
          by rintro _ ⟨⟩; rfl⟩
      | some ct =>
        obtain ⟨content, t⟩ := ct
        by_cases ha : t = Spec.alertType
        · subst ha
          rw [dispatch_alert _ _ _ _ _ _ hu] at h2
          left
          have : ∀ t, some (content, Spec.alertType) = some t → t.2 ≠ Spec.handshakeType ∧
              (t.2 = Spec.appDataType → c.expecting = true ∨ c.phase ≠ .receiving) := by
            rintro _ ⟨⟩
            exact ⟨by simp [Spec.alertType, Spec.handshakeType],
              by simp [Spec.alertType, Spec.appDataType]⟩
          split at h2
          · cases h2
            exact ⟨⟨rfl, rfl, rfl, rfl, rfl, rfl, rfl, rfl⟩, by simp only [heard1, Option.bind_some, hu]; exact this,
              by rintro _ ⟨⟩; rfl⟩
          · split at h2
            · cases h2
              exact ⟨⟨rfl, rfl, rfl, rfl, rfl, rfl, rfl, rfl⟩, by simp only [heard1, Option.bind_some, hu]; exact this,
                by rintro _ ⟨⟩; rfl⟩
            · cases h2
              exact ⟨⟨rfl, rfl, rfl, rfl, rfl, rfl, rfl, rfl⟩, by simp only [heard1, Option.bind_some, hu]; exact this,
                by rintro _ ⟨⟩; rfl⟩
        by_cases hh : t = Spec.handshakeType
        · subst hh
          rw [dispatch_handshake _ _ _ _ _ _ hu] at h2
          simp only [exec_bind_eq_ok] at h2
          obtain ⟨⟨h', res⟩, h3, ⟨c2, st, rekey⟩, h4, h5⟩ := h2
          cases h5
          right; right
          refine ⟨content, f.key, _, i, h', res, st, ?_, rfl, ?_, h3, h4⟩
          · simp [heard1, hu]
          · by_cases hst : st = .ok <;> simp [hst]
        by_cases hd : t = Spec.appDataType
        · subst hd
          rw [dispatch_appData _ _ _ _ _ _ hu] at h2
          by_cases hx : c.expecting = true
          · rw [if_pos (c := c.expecting = true) hx] at h2
            cases h2
            refine Or.inl ⟨⟨rfl, rfl, rfl, rfl, rfl, rfl, rfl, rfl⟩, ?_, by rintro _ ⟨⟩; rfl⟩
            simp only [heard1, Option.bind_some, hu]
            rintro _ ⟨⟩
            exact ⟨hh, fun _ => Or.inl hx⟩
          · rw [if_neg (c := c.expecting = true) hx] at h2
            by_cases hph : c.phase = .receiving
            · rw [if_pos (c := c.phase = .receiving) hph] at h2
              simp only [exec_bind_eq_ok] at h2
              obtain ⟨c1, h3, h4⟩ := h2
              cases h4
              right; left
              exact ⟨content, _, i, c1, by simp [heard1, hu], rfl, rfl, rfl, by simpa using hx, hph, h3, rfl⟩
            · rw [if_neg (c := c.phase = .receiving) hph] at h2
              cases h2
              refine Or.inl ⟨⟨rfl, rfl, rfl, rfl, rfl, rfl, rfl, rfl⟩, ?_, by rintro _ ⟨⟩; rfl⟩
              simp only [heard1, Option.bind_some, hu]
              rintro _ ⟨⟩
              exact ⟨hh, fun _ => Or.inr hph⟩
        · rw [dispatch_other _ _ _ _ _ _ hu ha hh hd] at h2
          cases h2
          refine Or.inl ⟨⟨rfl, rfl, rfl, rfl, rfl, rfl, rfl, rfl⟩, ?_, by rintro _ ⟨⟩; rfl⟩
          simp only [heard1, Option.bind_some, hu]
          rintro _ ⟨⟩
          exact ⟨hh, fun h => absurd h hd⟩

theorem handshakes_snoc (evs : List Event) (e : Event) :
    handshakes (evs ++ [e]) = handshakes evs ++
      (match heard1 e with
       | some (c, t) => if t = Spec.handshakeType then [c] else []
       | none => []) := by
  unfold handshakes
  rw [heard_snoc, List.filterMap_append]
  congr 1
  cases heard1 e with
  | none => rfl
  | some x =>
    obtain ⟨c, t⟩ := x
    simp only [Option.toList_some, List.filterMap_cons, List.filterMap_nil]
    by_cases h : t = Spec.handshakeType <;> simp [h]

theorem Inv.step {L : Lib} {a c evs c' op ev} (i : Inv a c (handshakes evs))
    (h : step L c op = .ok (c', ev)) : Inv a c' (handshakes (evs ++ [ev])) := by
  rw [handshakes_snoc]
  rcases step_cases h with ⟨h1, h2, _⟩ | ⟨content, r, j, c1, h1, _, _, _, _, h2, h3, h4⟩ |
    ⟨content, f, r, j, h', res, st, h1, _, _, h2, h3⟩
  · have : (match heard1 ev with
       | some (c, t) => if t = Spec.handshakeType then [c] else []
       | none => []) = [] := by
      cases hh : heard1 ev with
      | none => rfl
      | some t => simp [(h2 t hh).1]
    rw [this, List.append_nil]
    exact h1.inv i
  · rw [h1]
    simp only [Spec.appDataType, Spec.handshakeType, show (23 : UInt8) ≠ 22 by decide, if_false,
      List.append_nil]
    have hi : Inv a { c with inC := j } (handshakes evs) :=
      Calm.inv (c := c) ⟨rfl, rfl, rfl, rfl, rfl, rfl, rfl, rfl⟩ i
    exact hi.send h2 h3 c' (by rw [h4])
  · rw [h1]
    simp only [if_true]
    have hi : Inv a { c with inC := j } (handshakes evs) :=
      Calm.inv (c := c) ⟨rfl, rfl, rfl, rfl, rfl, rfl, rfl, rfl⟩ i
    exact hi.handshake h2 h3

theorem run_snoc_induct {L : Lib} {c0 : Conn} {P : Conn → List Event → Prop} (h0 : P c0 [])
    (hstep : ∀ c evs op c' ev, P c evs → step L c op = .ok (c', ev) → P c' (evs ++ [ev]))
    {ops c evs} (h : run L c0 ops = .ok (c, evs)) : P c evs := by
  suffices ∀ ops c1 e1 c evs, P c1 e1 → run L c1 ops = .ok (c, evs) → P c (e1 ++ evs) by
    simpa using this ops c0 [] c evs h0 h
  intro ops
  induction ops with
  | nil => intro c1 e1 c evs hp h; cases h; simpa using hp
  | cons op ops ih =>
    intro c1 e1 c evs hp h
    obtain ⟨d, ev, es, g1, g2, g3⟩ := run_cons h
    subst g3
    have := ih d (e1 ++ [ev]) c es (hstep _ _ _ _ _ hp g1) g2
    simpa using this

theorem Reach.inv {L : Lib} {a c evs} (h : Reach L a c evs) : Inv a c (handshakes evs) := by
  obtain ⟨c0, ops, h1, h2⟩ := h
  exact run_snoc_induct (P := fun c evs => Inv a c (handshakes evs)) (Inv.created h1)
    (fun _ _ _ _ _ hp hs => hp.step hs) h2

end S2A.Record
