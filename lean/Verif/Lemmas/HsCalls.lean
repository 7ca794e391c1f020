import Verif.Lemmas.Tidy
namespace S2A.Handler
open Spec (isTicket hsSplit ticketType updateType Unexpected)

/-- A message of an unexpected type is refused and leaves the handler in a state that
remembers it. -/
theorem loop_alien {h : Handler} {p rest : Bytes} {ms : List Bytes} {q : Bytes} {fuel : Nat}
    {ku tk : Bool} (r : Rel h p) (ti : TInv h) (hs : hsSplit (p ++ rest) = (ms, q))
    (hf : rest.length < fuel)
    (hp : p = [] ∨ p.head? = some ticketType ∨ p.head? = some updateType)
    (hu : Unexpected ms q) :
    ∃ h', loop fuel h rest ku tk = .ok (h', .error .internal) ∧ Alien h' := by
  have k4 : kTicketType = ticketType := rfl
  have k24 : kKeyUpdateType = updateType := rfl
  obtain ⟨pre, m, post, t, e, hpre, ht, h4, h24⟩ := hu
  have hrest : ∀ t' s', p ++ rest = t' :: s' → t' ≠ ticketType → t' ≠ updateType → rest ≠ [] := by
    rintro t' s' e1 n1 n2 rfl
    rw [List.append_nil] at e1
    rw [e1] at hp
    simp [n1, n2] at hp
  induction pre generalizing h p rest ms fuel ku tk with
  | nil =>
    have hq : ∃ s', p ++ rest = t :: s' := by
      rcases hsSplit_inv _ _ _ hs with ⟨h0, h1, _⟩ | ⟨m', ms', s1, h1, h2, _⟩
      · subst h0
        simp at e
        rw [h1, e.1]
        cases m with
        | nil => cases ht
        | cons a b => cases ht; exact ⟨b, rfl⟩
      · subst h1
        simp at e
        rw [h2, e.1]
        cases m with
        | nil => cases ht
        | cons a b => cases ht; exact ⟨_, rfl⟩
    obtain ⟨s', hq⟩ := hq
    obtain ⟨h', a, b, _⟩ := refuse_type (ku := ku) (tk := tk) r (hrest _ _ hq h4 h24) hq hf h4 h24
    exact ⟨h', a, b⟩
  | cons x pre ih =>
    have hx := hpre x (by simp)
    simp only [isTicket, Bool.and_eq_true, beq_iff_eq, bne_iff_ne] at hx
    rcases hsSplit_inv _ _ _ hs with ⟨h0, h1, _⟩ | ⟨m', ms', s1, h1, h2, h3, h4', h5⟩
    · subst h0
      simp at e
    · subst h1
      simp only [List.cons_append, List.cons.injEq] at e
      obtain ⟨rfl, e⟩ := e
      have hpm := prefix_lt r.incomplete h2 h4' h5
      obtain ⟨h1, fuel1, b1, b2, b3, b4, b5, b6⟩ :=
        consume_ticket (ku := ku) (tk := tk) r ti ⟨hx.1, h4', by omega⟩ h2 hpm hf
      rw [b1]
      exact ih b3 b4 (by simpa using h3) b2 (Or.inl rfl) e (fun y hy => hpre y (by simp [hy]))
        (by
          rintro t' s' e1 _ _ rfl
          cases e1)

theorem verdict_of_unexpected {ms : List Bytes} {q : Bytes} (hu : Unexpected ms q) :
    Spec.verdict ms q = .refuse := by
  obtain ⟨pre, m, post, t, e, hpre, ht, h4, h24⟩ := hu
  induction pre generalizing ms with
  | nil =>
    cases ms with
    | nil =>
      simp at e
      rw [Spec.verdict, if_neg]
      rw [e.1, ht]
      rintro (h | h | h)
      · rw [h] at ht; cases ht
      · cases h; exact h4 rfl
      · cases h; exact h24 rfl
    | cons m' ms =>
      simp at e
      rw [Spec.verdict, e.1, ht, if_neg (by simpa using h4), if_neg (by simpa using h24)]
  | cons x pre ih =>
    have hx := hpre x (by simp)
    simp only [isTicket, Bool.and_eq_true, beq_iff_eq, bne_iff_ne] at hx
    cases ms with
    | nil => simp at e
    | cons m' ms =>
      simp only [List.cons_append, List.cons.injEq] at e
      rw [Spec.verdict, e.1, if_pos hx.1, if_neg hx.2]
      exact ih e.2 (fun y hy => hpre y (by simp [hy]))

end S2A.Handler

namespace S2A.Record
open HalfConn (exec_bind_eq_ok AeadCall Good At bump)
open Handler (Rel TInv Wedged stored keep Alien)
open Spec (View view isTicket hsSplit verdict ticketType updateType due FifthStraddled
  LastStraddles CompletesFifth UpdatesWhole Unexpected)

/-! ### No undefined behaviour after decryption -/

theorem retrieveAndSend_total {c : Conn} (ti : TInv c.handler)
    (ht : c.handler.expectingMore = true → ∃ t, c.handler.messageType = .ok t) :
    ∃ c', retrieveAndSend c = .ok c' := by
  unfold retrieveAndSend Handler.getStoredTickets
  rcases ti with ⟨a, b, _⟩ | ⟨a, ts, b, _⟩
  · simp [a]
  · simp only [a, Bool.false_eq_true, if_false, b]
    cases he : c.handler.expectingMore with
    | false => simp
    | true =>
      obtain ⟨t, ht⟩ := ht he
      simp only [if_true, ht, exec_bind_ok, exec_pure]
      by_cases h4 : t = Handler.kTicketType <;> simp [h4]

theorem handleResult_total {L : Lib} {f : KeyFault} {s c res} (hg : Good s c.inC)
    (ti : TInv c.handler)
    (ht : c.handler.expectingMore = true → ∃ t, c.handler.messageType = .ok t) :
    ∃ x, handleResult L f c res = .ok x := by
  have hts : ∀ (d : Conn) x, d.handler = c.handler → ∃ c', handleTickets d x = .ok c' := by
    intro d x hd
    obtain ⟨c1, h1⟩ := retrieveAndSend_total (c := { d with phase := .receiving })
      (by rw [← hd] at ti; exact ti) (by rw [← hd] at ht; exact ht)
    unfold handleTickets
    cases d.phase with
    | done => exact ⟨_, rfl⟩
    | notReceived =>
      simp only
      cases x.containsTicket with
      | false => simp
      | true =>
        by_cases h5 : x.numFull ≥ Handler.kMaxTickets <;> simp [h5, h1]
    | receiving =>
      simp only
      cases x.containsTicket with
      | false => simp
      | true =>
        by_cases h5 : x.numFull ≥ Handler.kMaxTickets <;> simp [h5, h1]
  unfold handleResult
  cases res with
  | error e => exact ⟨_, rfl⟩
  | ok x =>
    simp only
    cases x.containsKeyUpdate with
    | false =>
      obtain ⟨c', h1⟩ := hts { c with expecting := x.expecting } x rfl
      simp [h1]
    | true =>
      obtain ⟨i, st, h1, _⟩ := HalfConn.updateKey_spec L f s c.inC hg
      obtain ⟨c', h2⟩ := hts { c with expecting := x.expecting, inC := i } x rfl
      simp only [if_true, h1, exec_bind_ok]
      by_cases hst : st = .ok <;> simp [hst, h2]

theorem Inv.typed {a c hs} (i : Inv a c hs) :
    c.handler.expectingMore = true → ∃ t, c.handler.messageType = .ok t := by
  intro he
  cases hv : (view hs).sane with
  | false => exact (i.wedged hv).type
  | true =>
    obtain ⟨r, _⟩ := i.sane hv
    cases hr : (view hs).rest with
    | nil => rw [hr] at r; rw [r.expecting] at he; cases he
    | cons t p => rw [hr] at r; exact ⟨t, r.type⟩

/-- In order so far, and the record contains no message with an empty body: the handler
processes it. -/
theorem Inv.process_total {a c hs content} (i : Inv a c hs) (hv : (view hs).sane = true)
    (hc : verdict (hsSplit ((view hs).rest ++ content)).1 (hsSplit ((view hs).rest ++ content)).2 ≠
      .emptyBody) : ∃ x, c.handler.process content = .ok x := by
  obtain ⟨r, hq⟩ := i.sane hv
  unfold Handler.process
  obtain ⟨h1, h2⟩ := Handler.loop_verdict (ku := false) (tk := false) r i.tinv rfl
    (Nat.lt_succ_self content.length) hq
  cases hvd : verdict (hsSplit ((view hs).rest ++ content)).1 (hsSplit ((view hs).rest ++ content)).2 with
  | accept => obtain ⟨h', e, _⟩ := h1 hvd; exact ⟨_, e⟩
  | refuse => obtain ⟨h', e⟩ := h2 hvd; exact ⟨_, e⟩
  | emptyBody => exact absurd hvd hc

/-- A typed but otherwise arbitrary handler accepts an empty record. -/
theorem process_nil (h : Handler) : h.process [] =
    .ok (h, .ok ⟨h.expectingMore, false, Handler.kInvalidKeyUpdateType, false, h.numFull⟩) := by
  simp [Handler.process, Handler.loop]

/-- After a decryption only handshake records can be undefined. -/
theorem dispatch_total {L : Lib} {f : KeyFault} {c : Conn} {call p tail s a hs} (hg : Good s c.inC)
    (i : Inv a c hs)
    (hp : ∀ content, Spec.unpad p = some (content, Spec.handshakeType) →
      ∃ x, c.handler.process content = .ok x) :
    ∃ x, dispatch L f c call (p ++ tail) p.length = .ok x := by
  cases hu : Spec.unpad p with
  | none => rw [dispatch_none _ _ _ _ _ _ hu]; exact ⟨_, rfl⟩
  | some ct =>
    obtain ⟨content, t⟩ := ct
    by_cases h1 : t = Spec.alertType
    · subst h1; rw [dispatch_alert _ _ _ _ _ _ hu]; exact ⟨_, rfl⟩
    by_cases h2 : t = Spec.handshakeType
    · subst h2
      rw [dispatch_handshake _ _ _ _ _ _ hu]
      obtain ⟨⟨h', res⟩, hx⟩ := hp content hu
      obtain ⟨p1, _, p3, p4, _⟩ := process_inv i hx
      have hty : h'.expectingMore = true → ∃ t, h'.messageType = .ok t := by
        intro he
        cases hv : (view (hs ++ [content])).sane with
        | false => exact (p4 hv).type
        | true =>
          obtain ⟨r, _⟩ := p3 hv
          cases hr : (view (hs ++ [content])).rest with
          | nil => rw [hr] at r; rw [r.expecting] at he; cases he
          | cons t p => rw [hr] at r; exact ⟨t, r.type⟩
      obtain ⟨⟨c', st, rk⟩, hy⟩ := handleResult_total (L := L) (f := f)
        (c := { c with handler := h' }) (res := res) hg p1 hty
      simp [hx, hy]
    by_cases h3 : t = Spec.appDataType
    · subst h3
      rw [dispatch_appData _ _ _ _ _ _ hu]
      obtain ⟨c', hc⟩ := retrieveAndSend_total i.tinv i.typed
      by_cases hx : c.expecting = true
      · simp [hx]
      · by_cases hph : c.phase = .receiving <;> simp [hx, hph, hc]
    · rw [dispatch_other _ _ _ _ _ _ hu h1 h2 h3]; exact ⟨_, rfl⟩

theorem dispatch_inner {L : Lib} {f : KeyFault} {c c' : Conn} {call p tail r}
    (h : dispatch L f c call (p ++ tail) p.length = .ok (c', r)) : r.inner = some p := by
  cases hu : Spec.unpad p with
  | none => rw [dispatch_none _ _ _ _ _ _ hu] at h; cases h; rfl
  | some ct =>
    obtain ⟨content, t⟩ := ct
    by_cases h1 : t = Spec.alertType
    · subst h1
      rw [dispatch_alert _ _ _ _ _ _ hu] at h
      split at h
      · cases h; rfl
      · split at h <;> (cases h; rfl)
    by_cases h2 : t = Spec.handshakeType
    · subst h2
      rw [dispatch_handshake _ _ _ _ _ _ hu] at h
      simp only [exec_bind_eq_ok] at h
      obtain ⟨⟨_, _⟩, _, ⟨_, _, _⟩, _, h⟩ := h
      cases h; rfl
    by_cases h3 : t = Spec.appDataType
    · subst h3
      rw [dispatch_appData _ _ _ _ _ _ hu] at h
      split at h
      · cases h; rfl
      · split at h
        · simp only [exec_bind_eq_ok] at h
          obtain ⟨_, _, h⟩ := h
          cases h; rfl
        · cases h; rfl
    · rw [dispatch_other _ _ _ _ _ _ hu h1 h2 h3] at h; cases h; rfl

/-! ### The records and the byte stream -/

theorem filter_takeWhile_prefix {p q : Bytes → Bool} (h : ∀ x, p x = true → q x = true)
    (l : List Bytes) : l.takeWhile p <+: l.filter q := by
  induction l with
  | nil => exact List.prefix_refl _
  | cons x l ih =>
    rw [List.takeWhile_cons]
    by_cases hx : p x = true
    · rw [if_pos hx, List.filter_cons, if_pos (h x hx)]
      exact List.cons_prefix_cons.2 ⟨rfl, ih⟩
    · rw [if_neg hx]; exact List.nil_prefix

theorem takeWhile_of_accept {ms : List Bytes} {q : Bytes} (hacc : verdict ms q = .accept) :
    ms.takeWhile isTicket = Spec.tickets ms := by
  induction ms with
  | nil => rfl
  | cons m ms ih =>
    unfold verdict at hacc
    by_cases hm : m.head? = some ticketType
    · rw [if_pos hm] at hacc
      by_cases hl : m.length = 4
      · rw [if_pos hl] at hacc; cases hacc
      · rw [if_neg hl] at hacc
        rw [Handler.tickets_cons_ticket hm, ← ih hacc, List.takeWhile_cons, if_pos]
        simp [isTicket, hm, hl]
    · rw [if_neg hm] at hacc
      rw [List.takeWhile_cons, if_neg (by simp [isTicket, hm])]
      by_cases hu : m.head? = some updateType
      · rw [if_pos hu] at hacc
        by_cases hl : m.length = 4
        · rw [if_pos hl] at hacc; cases hacc
        · rw [if_neg hl] at hacc
          by_cases hb : ms = [] ∧ q = []
          · rw [hb.1]; simp [Spec.tickets, hm]
          · rw [if_neg hb] at hacc; cases hacc
      · rw [if_neg hu] at hacc; cases hacc

/-- The key updates among some messages. -/
abbrev updatesOf (ms : List Bytes) : List Bytes := ms.filter fun m => m.head? == some updateType

/-- `view` by induction from the end. -/
theorem view_induct {P : List Bytes → Prop} (h0 : P [])
    (hstep : ∀ hs r, P hs → P (hs ++ [r])) (hs : List Bytes) : P hs := by
  suffices ∀ l hs, P hs → P (hs ++ l) by simpa using this hs [] h0
  intro l
  induction l with
  | nil => intro hs h; simpa using h
  | cons r l ih => intro hs h; simpa using ih (hs ++ [r]) (hstep hs r h)

theorem view_stream (hs : List Bytes) (hv : (view hs).sane = true) :
    (view hs).tickets = Spec.tickets (hsSplit hs.flatten).1 ∧
    (view hs).updates = (updatesOf (hsSplit hs.flatten).1).length ∧
    (view hs).rest = (hsSplit hs.flatten).2 := by
  revert hv
  refine view_induct (P := fun hs => (view hs).sane = true →
    (view hs).tickets = Spec.tickets (hsSplit hs.flatten).1 ∧
    (view hs).updates = (updatesOf (hsSplit hs.flatten).1).length ∧
    (view hs).rest = (hsSplit hs.flatten).2) ?_ ?_ hs
  · intro _
    rw [List.flatten_nil, Handler.hsSplit_nil]
    exact ⟨rfl, rfl, rfl⟩
  · intro hs r ih h
    have hs' := sane_of_prefix h
    obtain ⟨h1, h2, h3⟩ := ih hs'
    rw [view_append] at h ⊢
    simp only [View.hear, hs', if_true, beq_iff_eq] at h ⊢
    rw [List.flatten_append, List.flatten_cons, List.flatten_nil, List.append_nil,
      Handler.hsSplit_append hs.flatten r, ← h3, h1, h2, takeWhile_of_accept h]
    simp [Spec.tickets, updatesOf]

/-- Whatever was received, the tickets seen are the first tickets of the stream. -/
theorem view_tickets_prefix (hs : List Bytes) :
    (view hs).tickets <+: Spec.tickets (hsSplit hs.flatten).1 := by
  refine view_induct (P := fun hs => (view hs).tickets <+: Spec.tickets (hsSplit hs.flatten).1)
    ?_ ?_ hs
  · exact List.nil_prefix
  · intro hs r ih
    have hst : Spec.tickets (hsSplit (hs ++ [r]).flatten).1 =
        Spec.tickets (hsSplit hs.flatten).1 ++
          Spec.tickets (hsSplit ((hsSplit hs.flatten).2 ++ r)).1 := by
      rw [List.flatten_append, List.flatten_cons, List.flatten_nil, List.append_nil,
        Handler.hsSplit_append]
      simp [Spec.tickets]
    rw [hst, view_append]
    cases hv : (view hs).sane with
    | false =>
      have : (view hs).hear r = view hs := by simp [View.hear, hv]
      rw [this]
      exact ih.trans (List.prefix_append _ _)
    | true =>
      obtain ⟨h1, _, h3⟩ := view_stream hs hv
      simp only [View.hear, hv, if_true]
      rw [h1, h3]
      exact (List.prefix_append_right_inj _).2
        (filter_takeWhile_prefix (fun x hx => by
          simp only [isTicket, Bool.and_eq_true] at hx; exact hx.1) _)

theorem stream_tickets_mono {hs1 hs : List Bytes} (h : hs1 <+: hs) :
    Spec.tickets (hsSplit hs1.flatten).1 <+: Spec.tickets (hsSplit hs.flatten).1 := by
  obtain ⟨l, rfl⟩ := h
  rw [List.flatten_append, Handler.hsSplit_append]
  simp only [Spec.tickets, List.filter_append]
  exact List.prefix_append _ _

theorem hsOf_map (hs : List Bytes) : hsOf (hs.map (·, Spec.handshakeType)) = hs := by
  unfold hsOf
  rw [List.filterMap_map]
  have : ((fun x : Bytes × UInt8 => if x.2 = Spec.handshakeType then some x.1 else none) ∘
      fun x => (x, Spec.handshakeType)) = some := by
    funext x; simp
  rw [this]
  exact List.filterMap_some

/-- What is due after some handshake records depends on their bytes only. -/
theorem due_stream (hs : List Bytes) (hv : (view hs).sane = true) :
    due .start (hs.map (·, Spec.handshakeType)) =
      if 5 ≤ (Spec.tickets (hsSplit hs.flatten).1).length then
        some ((Spec.tickets (hsSplit hs.flatten).1).take 5) else none := by
  revert hv
  refine view_induct (P := fun hs => (view hs).sane = true →
    due .start (hs.map (·, Spec.handshakeType)) =
      if 5 ≤ (Spec.tickets (hsSplit hs.flatten).1).length then
        some ((Spec.tickets (hsSplit hs.flatten).1).take 5) else none) ?_ ?_ hs
  · intro _
    rw [List.flatten_nil, Handler.hsSplit_nil]
    rfl
  · intro hs r ih hv
    have hv' := sane_of_prefix hv
    rw [List.map_append, List.map_cons, List.map_nil, due_snoc, ih hv', hsOf_map]
    have hpre := stream_tickets_mono (List.prefix_append hs [r])
    have hnew := (view_stream _ hv).1
    rw [← hnew] at hpre ⊢
    by_cases h5 : 5 ≤ (Spec.tickets (hsSplit hs.flatten).1).length
    · have h5' : 5 ≤ (view (hs ++ [r])).tickets.length := Nat.le_trans h5 hpre.length_le
      rw [if_pos h5, if_pos h5', Option.some_or]
      obtain ⟨l, hl⟩ := hpre
      rw [← hl, List.take_append_of_le_length h5]
    · rw [if_neg h5, Option.none_or]
      simp only [due, if_true]
      have : (hs.foldl View.hear .start).hear r = view (hs ++ [r]) := (view_append hs r).symm
      rw [this]

theorem due_stream_data (hs : List Bytes) (d : Bytes) (hv : (view hs).sane = true) :
    due .start (hs.map (·, Spec.handshakeType) ++ [(d, Spec.appDataType)]) =
      if 5 ≤ (Spec.tickets (hsSplit hs.flatten).1).length then
        some ((Spec.tickets (hsSplit hs.flatten).1).take 5)
      else if Spec.tickets (hsSplit hs.flatten).1 ≠ [] ∧ (hsSplit hs.flatten).2 = [] then
        some (Spec.tickets (hsSplit hs.flatten).1)
      else none := by
  obtain ⟨v1, _, v3⟩ := view_stream hs hv
  rw [due_snoc, hsOf_map, due_stream hs hv]
  by_cases h5 : 5 ≤ (Spec.tickets (hsSplit hs.flatten).1).length
  · simp [h5]
  · rw [if_neg h5, if_neg h5, Option.none_or]
    simp only [due]
    rw [if_neg (by simp [Spec.appDataType, Spec.handshakeType])]
    have : hs.foldl View.hear .start = view hs := rfl
    rw [this, v1, v3]
    simp

/-! ### An unexpected message is remembered -/

theorem alien_step {L : Lib} {c c' : Conn} {op ev} (ha : Alien c.handler)
    (h : step L c op = .ok (c', ev)) :
    Alien c'.handler ∧ ∀ content, heard1 ev = some (content, Spec.handshakeType) → content ≠ [] →
      ∃ r, ev = .opened r ∧ r.code ≠ .ok ∧ r.rekey = none := by
  rcases step_cases h with ⟨h1, h2, _⟩ | ⟨content, r, j, c1, h1, h0, _, _, hx, h2, h3, h4⟩ |
    ⟨content, f, r, j, h', res, st, h1, hev, hc, h2, h3⟩
  · refine ⟨by rw [h1.handler]; exact ha, fun content hh => ?_⟩
    exact absurd rfl (h2 _ hh).1
  · refine ⟨?_, fun content' hh => ?_⟩
    · rw [h4]
      rcases retrieveAndSend_inv h3 with ⟨e, _⟩ | ⟨_, _, e, _⟩
      · simp only [e]; exact ha
      · simp only [e]
        obtain ⟨t, ht⟩ := ha
        exact ⟨t, ht⟩
    · rw [h1] at hh
      simp [Spec.appDataType, Spec.handshakeType] at hh
  · obtain ⟨a1, a2, a3⟩ := ha.loop h2
    have key : Alien c'.handler ∧ (content ≠ [] → st ≠ .ok ∧ r.rekey = none) := by
      rcases handleResult_cases h3 with ⟨e, e1, e2, e3, e4⟩ | ⟨x, e1, e2⟩
      · refine ⟨by rw [e2]; exact a1, fun hne => ?_⟩
        rcases a3 with ⟨n1, n2⟩ | ⟨_, n2⟩
        · exact absurd n1 hne
        · rw [e1] at n2
          cases n2
          exact ⟨by rw [e3]; simp, e4⟩
      · rcases a3 with ⟨n1, n2⟩ | ⟨_, n2⟩
        · refine ⟨?_, fun hne => absurd n1 hne⟩
          rw [e1] at n2
          cases n2
          rcases e2 with ⟨i, s, _, k, _⟩ | ⟨i, k, _⟩
          · cases k
          · rcases handleTickets_cases k with ⟨_, rfl⟩ | ⟨_, _, rfl⟩ | ⟨_, k, _⟩
            · exact a1
            · exact a1
            · cases k
        · rw [e1] at n2; cases n2
    refine ⟨key.1, fun content' hh hne => ⟨r, hev, ?_, ?_⟩⟩
    · rw [h1] at hh
      cases hh
      intro hok
      exact (key.2 hne).1 (hc.1 hok)
    · rw [h1] at hh
      cases hh
      exact (key.2 hne).2

/-- A refused record leaves the phase and everything but the handler alone; no key update. -/
theorem refused_step {L : Lib} {a c c' op ev evs content} (i : Inv a c (handshakes evs))
    (hv : (view (handshakes evs)).sane = true) (h : step L c op = .ok (c', ev))
    (hh : heard1 ev = some (content, Spec.handshakeType))
    (hr : verdict (hsSplit ((view (handshakes evs)).rest ++ content)).1
      (hsSplit ((view (handshakes evs)).rest ++ content)).2 = .refuse) :
    ∃ r, ev = .opened r ∧ r.code ≠ .ok ∧ r.rekey = none ∧
      (Unexpected (hsSplit ((view (handshakes evs)).rest ++ content)).1
        (hsSplit ((view (handshakes evs)).rest ++ content)).2 → Alien c'.handler) := by
  rcases step_cases h with ⟨h1, h2, _⟩ | ⟨content', r, j, c1, h1, h0, _, _, hx, h2, h3, h4⟩ |
    ⟨content', f, r, j, h', res, st, h1, hev, hc, h2, h3⟩
  · exact absurd rfl (h2 _ hh).1
  · rw [h1] at hh
    simp [Spec.appDataType, Spec.handshakeType] at hh
  · rw [h1] at hh
    cases hh
    obtain ⟨r1, hq⟩ := i.sane hv
    obtain ⟨h'', e⟩ := (Handler.loop_verdict (ku := false) (tk := false) r1 i.tinv rfl
      (Nat.lt_succ_self content.length) hq).2 hr
    have h2' := h2
    unfold Handler.process at h2'
    rw [e] at h2'
    cases h2'
    rcases handleResult_cases h3 with ⟨_, e1, e2, e3, e4⟩ | ⟨x, e1, e2⟩
    · cases e1
      refine ⟨r, hev, fun hok => ?_, e4, fun hu => ?_⟩
      · have := hc.1 hok; rw [e3] at this; cases this
      · obtain ⟨g, b1, b2⟩ := Handler.loop_alien (ku := false) (tk := false) r1 i.tinv rfl
          (Nat.lt_succ_self content.length) hq hu
        rw [b1] at e
        cases e
        rw [e2]; exact b2
    · cases e1

end S2A.Record

namespace S2A.Record
open HalfConn (exec_bind_eq_ok AeadCall Good At bump)

/-- A failed key update of the inbound direction blocks it for good. -/
theorem Reach.noFail_or_dead {L : Lib} {a c evs} (h : Reach L a c evs) :
    NoFailedUpdate evs ∨ c.inC.alwaysFail = true := by
  obtain ⟨s, hs⟩ := h.suite
  obtain ⟨c0, ops, h1, h2⟩ := h
  have := run_snoc_induct (P := fun c evs => Reach L a c evs ∧
      (NoFailedUpdate evs ∨ c.inC.alwaysFail = true))
    ⟨⟨c0, [], h1, rfl⟩, Or.inl (fun r hr => by cases hr)⟩
    (fun c evs op c' ev hp hst => ⟨hp.1.step hst, by
      have hrun : Record.run L c [op] = .ok (c', [ev]) := by simp [Record.run, hst]
      have hgood := (hp.1.good hs).1
      rcases hp.2 with hn | hd
      · by_cases hev : ∃ r st, ev = .opened r ∧ r.rekey = some st ∧ st ≠ .ok
        · right
          obtain ⟨r, st, rfl, hrk, hst'⟩ := hev
          cases op with
          | protect f rt pt rec =>
            simp only [Record.step, exec_bind_eq_ok] at hst
            obtain ⟨⟨_, _⟩, _, h⟩ := hst
            cases h
          | updateOutboundKey f =>
            simp only [Record.step, exec_bind_eq_ok] at hst
            obtain ⟨⟨_, _⟩, _, h⟩ := hst
            cases h
          | unprotect f header payload out =>
            simp only [Record.step, exec_bind_eq_ok] at hst
            obtain ⟨⟨c1, r1⟩, hu, h⟩ := hst
            cases h
            simp only at hrk
            obtain ⟨_, hfr⟩ := unprotect_frame hu
            rw [hrk] at hfr
            rcases hfr with ⟨_, _, h0⟩ | ⟨i, r', d1, ⟨h0, _⟩ | ⟨st', h0, d2⟩⟩
            · cases h0
            · cases h0
            · cases h0
              have hgi : Good s i := by
                have := HalfConn.step_good (op := .decrypt f.evp [header] payload out) hgood
                  (L := L) (hc' := i) (ev := .aead r1.call r'.status) (by simp [HalfConn.step, d1])
                exact this
              obtain ⟨hc', st', k1, k2, k3, k4, k5⟩ := HalfConn.updateKey_spec L f.key s i hgi
              rw [d2] at k1
              cases k1
              exact (k4 hst').1
        · left
          intro r hr
          rcases List.mem_append.1 hr with hr | hr
          · exact hn r hr
          · rw [List.mem_singleton] at hr
            cases hrk : r.rekey with
            | none => exact Or.inl rfl
            | some st =>
              right
              exact congrArg some (Decidable.byContradiction fun hne => hev ⟨r, st, hr.symm, hrk, hne⟩)
      · right
        obtain ⟨_, ⟨o, e, p1, _⟩⟩ := run_project hrun
        exact (HalfConn.alwaysFail_run hgood hd p1).1⟩) h2
  exact this.2

/-- In a blocked direction nothing is decrypted. -/
theorem dead_unprotect {L : Lib} {a c c' evs f header payload out r} (h : Reach L a c evs)
    (hd : c.inC.alwaysFail = true) (hp : AllWF payload) (ho : out.WF)
    (hu : unprotect L f c header payload out = .ok (c', r)) : r.code ≠ .ok := by
  obtain ⟨s, hs⟩ := h.suite
  rcases unprotect_spec L f c header payload out (h.good hs).1.nonce hp ho with
    ⟨_, h2⟩ | ⟨_, h⟩
  · rw [hu] at h2; cases h2; simp
  rcases h with ⟨_, h2⟩ | ⟨_, h2⟩ | ⟨_, _, h⟩
  · rw [hu] at h2; cases h2; simp
  · rw [hu] at h2; cases h2; simp
  rcases h with ⟨_, h2⟩ | ⟨_, h⟩
  · rw [hu] at h2; cases h2; simp
  rcases h with ⟨_, h2⟩ | ⟨hb, _⟩
  · rw [hu] at h2; cases h2; simp
  · rw [blocked_of_alwaysFail hd] at hb; cases hb

end S2A.Record
