import Verif.Lemmas.Heard
namespace S2A.Record
open HalfConn (exec_bind_eq_ok AeadCall)
open Handler (Rel TInv Wedged stored keep)
open Spec (View view isTicket hsSplit verdict ticketType updateType due FifthStraddled
  LastStraddles CompletesFifth UpdatesWhole)

/-- Handshake records among some records. -/
def hsOf (rs : List (Bytes × UInt8)) : List Bytes :=
  rs.filterMap fun x => if x.2 = Spec.handshakeType then some x.1 else none

theorem handshakes_eq (evs : List Event) : handshakes evs = hsOf (heard evs) := rfl

theorem due_snoc (v : View) (rs : List (Bytes × UInt8)) (x : Bytes × UInt8) :
    due v (rs ++ [x]) = (due v rs).or (due ((hsOf rs).foldl View.hear v) [x]) := by
  induction rs generalizing v with
  | nil =>
    show due v [x] = Option.or none _
    rw [Option.none_or]
    rfl
  | cons y rs ih =>
    obtain ⟨content, t⟩ := y
    rw [List.cons_append, due, due]
    by_cases h : t = Spec.handshakeType
    · simp only [h, if_true]
      have : hsOf ((content, Spec.handshakeType) :: rs) = content :: hsOf rs := by simp [hsOf]
      rw [this, List.foldl_cons]
      by_cases h5 : 5 ≤ (v.hear content).tickets.length
      · simp [h5]
      · simp only [h5, if_false]; exact ih _
    · have : hsOf ((content, t) :: rs) = hsOf rs := by simp [hsOf, h]
      simp only [h, if_false, this]
      by_cases h5 : t = Spec.appDataType ∧ v.tickets ≠ [] ∧ v.rest = []
      · simp [h5]
      · simp only [h5, if_false]; exact ih _

theorem due_none_lt (v : View) (rs : List (Bytes × UInt8)) (hv : v.tickets.length < 5)
    (h : due v rs = none) : ((hsOf rs).foldl View.hear v).tickets.length < 5 := by
  induction rs generalizing v with
  | nil => simpa [hsOf]
  | cons y rs ih =>
    obtain ⟨content, t⟩ := y
    rw [due] at h
    by_cases ht : t = Spec.handshakeType
    · simp only [ht, if_true] at h
      have : hsOf ((content, t) :: rs) = content :: hsOf rs := by simp [hsOf, ht]
      rw [this, List.foldl_cons]
      by_cases h5 : 5 ≤ (v.hear content).tickets.length
      · simp [h5] at h
      · simp only [h5, if_false] at h
        exact ih _ (by omega) h
    · have : hsOf ((content, t) :: rs) = hsOf rs := by simp [hsOf, ht]
      simp only [ht, if_false] at h
      rw [this]
      by_cases h5 : t = Spec.appDataType ∧ v.tickets ≠ [] ∧ v.rest = []
      · simp [h5] at h
      · simp only [h5, if_false] at h; exact ih _ hv h

/-- The records heard so far call for sending these tickets. -/
abbrev dueNow (evs : List Event) : Option (List Bytes) := due .start (heard evs)

theorem dueNow_none_lt {evs : List Event} (h : dueNow evs = none) :
    (view (handshakes evs)).tickets.length < 5 :=
  due_none_lt _ _ (by simp [View.start]) h

theorem dueNow_calm {evs ev} (h : heard1 ev = none) : dueNow (evs ++ [ev]) = dueNow evs := by
  unfold dueNow; rw [heard_snoc, h]; simp

theorem dueNow_snoc {evs ev x} (h : heard1 ev = some x) :
    dueNow (evs ++ [ev]) = (dueNow evs).or (due (view (handshakes evs)) [x]) := by
  unfold dueNow; rw [heard_snoc, h, Option.toList_some, due_snoc]; rfl

theorem hear_sane {v : View} {r : Bytes} (h : (v.hear r).sane = true) : v.sane = true := by
  unfold View.hear at h
  cases hv : v.sane with
  | true => rfl
  | false => simp [hv] at h

theorem sane_of_prefix {hs hs' : List Bytes} (h : (view (hs ++ hs')).sane = true) :
    (view hs).sane = true := by
  induction hs' generalizing hs with
  | nil => simpa using h
  | cons a l ih =>
    have : (view (hs ++ [a])).sane = true := ih (by simpa using h)
    rw [view_append] at this
    exact hear_sane this

theorem NoFailedUpdate.init {evs ev} (h : NoFailedUpdate (evs ++ [ev])) : NoFailedUpdate evs :=
  fun r hr => h r (by simp [hr])

theorem handshakes_prefix (evs : List Event) (ev : Event) :
    ∃ l, handshakes (evs ++ [ev]) = handshakes evs ++ l := ⟨_, handshakes_snoc evs ev⟩

theorem FifthStraddled.append {hs l : List Bytes} (h : FifthStraddled hs) :
    FifthStraddled (hs ++ l) := by
  obtain ⟨pre, r, h1, h2⟩ := h
  exact ⟨pre, r, h1.trans (List.prefix_append _ _), h2⟩

/-- State of the ticket phase as long as everything is in order. -/
structure Tidy (c : Conn) (evs : List Event) : Prop where
  exp : ¬ LastStraddles (handshakes evs) → c.expecting = !(view (handshakes evs)).rest.isEmpty
  sent : ∀ d, dueNow evs = some d → c.phase = .done ∧
    (¬ FifthStraddled (handshakes evs) → c.sent.map (·.tickets) = [d])
  wait : dueNow evs = none → c.phase ≠ .done ∧
    (c.phase = .notReceived → (view (handshakes evs)).tickets = [])

theorem Tidy.created {L : Lib} {a c} (h : Created L a c) : Tidy c [] := by
  obtain ⟨fi, fo, h⟩ := h
  have hh : c.phase = .notReceived ∧ c.expecting = false := by
    unfold create at h
    split at h
    · cases h
    split at h
    · cases h
    split at h
    · cases h
    split at h
    · cases h
    simp only [exec_bind_eq_ok] at h
    obtain ⟨ri, _, h⟩ := h
    cases ri with
    | error e => cases h
    | ok i =>
      simp only [exec_bind_eq_ok] at h
      obtain ⟨ro, _, h⟩ := h
      cases ro with
      | error e => cases h
      | ok o => cases h; simp
  refine ⟨fun _ => by rw [hh.2]; rfl, fun d hd => (by cases hd), fun _ => ⟨by simp [hh.1], fun _ => rfl⟩⟩

theorem Inv.not_retrieved {a c hs} (i : Inv a c hs) (h : c.phase ≠ .done) :
    c.handler.retrieved = false := by
  cases hr : c.handler.retrieved with
  | false => rfl
  | true => exact absurd (i.sent hr).1 h

theorem numFull_stored {h : Handler} (ti : TInv h) (hr : h.retrieved = false) :
    h.numFull = (stored h).length := by
  rcases ti with ⟨a, _⟩ | ⟨_, ts, b, c, _⟩
  · rw [hr] at a; cases a
  · simp [stored, b, c]

theorem type_ne_ticket {h : Handler} {p : Bytes} (r : Rel h p) (hp : p.head? ≠ some ticketType) :
    h.messageType ≠ .ok Handler.kTicketType := by
  cases p with
  | nil =>
    intro ht
    have := r.expecting
    rw [Handler.expecting_of_type ht] at this
    cases this
  | cons t p =>
    rw [r.type]
    intro ht
    cases ht
    exact hp rfl

theorem no_ticket_heard {v : View} {content : Bytes} (hv : v.sane = true)
    (h : (!content.isEmpty && Spec.mentionsType ticketType (hsSplit (v.rest ++ content)).1
      (v.hear content).rest) = false) (hi : Handler.Incomplete v.rest) :
    (v.hear content).tickets = v.tickets := by
  simp only [View.hear, hv, if_true]
  cases content with
  | nil => simp [Handler.hsSplit_of_incomplete hi]
  | cons b bs =>
    simp only [List.isEmpty_cons, Bool.not_false, Bool.true_and] at h
    have : (hsSplit (v.rest ++ b :: bs)).1.takeWhile isTicket = [] := by
      cases hm : (hsSplit (v.rest ++ b :: bs)).1 with
      | nil => rfl
      | cons m ms =>
        rw [hm, Handler.mentions_cons] at h
        simp only [Bool.or_eq_false_iff] at h
        rw [List.takeWhile_cons, if_neg]
        simp [isTicket, h.1]
    simp [this]

theorem Tidy.step {L : Lib} {a c evs op c' ev} (i : Inv a c (handshakes evs))
    (t : Tidy c evs) (h : step L c op = .ok (c', ev))
    (hs : (view (handshakes (evs ++ [ev]))).sane = true) (hf : NoFailedUpdate (evs ++ [ev])) :
    Tidy c' (evs ++ [ev]) := by
  have i' : Inv a c' (handshakes (evs ++ [ev])) := i.step h
  rcases step_cases h with ⟨h1, h2, _⟩ | ⟨content, r, j, c1, h1, _, _, _, hx, h2, h3, h4⟩ |
    ⟨content, f, r, j, h', res, st, h1, hev, _, h2, h3⟩
  · -- nothing happens
    have hhs : handshakes (evs ++ [ev]) = handshakes evs := by
      rw [handshakes_snoc]
      cases hh : heard1 ev with
      | none => simp
      | some t => simp [(h2 t hh).1]
    have hd : dueNow (evs ++ [ev]) = dueNow evs := by
      cases hh : heard1 ev with
      | none => exact dueNow_calm hh
      | some x =>
        obtain ⟨content, ty⟩ := x
        rw [dueNow_snoc hh]
        cases hdue : dueNow evs with
        | some d => simp
        | none =>
          obtain ⟨n1, n2⟩ := t.wait hdue
          obtain ⟨x1, x2⟩ := h2 _ hh
          simp only [Option.none_or, due, x1, if_false]
          by_cases hc : ty = Spec.appDataType ∧ (view (handshakes evs)).tickets ≠ [] ∧
              (view (handshakes evs)).rest = []
          · exfalso
            have hls : ¬ LastStraddles (handshakes evs) := by
              rintro ⟨pre, r, _, _, h5⟩
              exact h5 hc.2.2
            have := t.exp hls
            rw [hc.2.2] at this
            rcases x2 hc.1 with h | h
            · rw [this] at h; cases h
            · apply hc.2.1
              apply n2
              cases hp : c.phase with
              | notReceived => rfl
              | receiving => exact absurd hp h
              | done => exact absurd hp n1
          · simp [hc]
    refine ⟨?_, ?_, ?_⟩
    · rw [hhs, h1.expecting]; exact t.exp
    · rw [hhs, hd, h1.phase, h1.sent]; exact t.sent
    · rw [hhs, hd, h1.phase]; exact t.wait
  · -- application data ends the ticket phase
    have hhs : handshakes (evs ++ [ev]) = handshakes evs := by
      rw [handshakes_snoc, h1]; simp [Spec.appDataType, Spec.handshakeType]
    rw [hhs] at hs i'
    have hdn : dueNow evs = none := by
      cases hd : dueNow evs with
      | none => rfl
      | some d => have := (t.sent d hd).1; rw [h2] at this; cases this
    have hlt := dueNow_none_lt hdn
    have hls : ¬ LastStraddles (handshakes evs) := by
      rintro ⟨pre, r, e, h5, _⟩
      have := h5.2
      rw [← e] at this
      omega
    have he := t.exp hls
    rw [hx] at he
    have hrest : (view (handshakes evs)).rest = [] := by
      cases hr : (view (handshakes evs)).rest with
      | nil => rfl
      | cons x xs => rw [hr] at he; cases he
    obtain ⟨hrel, _⟩ := i.sane hs
    have hnr := i.not_retrieved (by rw [h2]; simp)
    obtain ⟨k1, k2, k3⟩ := i.kept hnr
    have htake : (view (handshakes evs)).tickets.take 5 = (view (handshakes evs)).tickets :=
      List.take_of_length_le (by omega)
    have hty : c.handler.messageType ≠ .ok Handler.kTicketType :=
      type_ne_ticket hrel (by rw [hrest]; simp)
    have hne : (view (handshakes evs)).tickets ≠ [] := by
      rcases i.receiving h2 with h | h
      · rw [k2, htake] at h; exact h
      · exact absurd h hty
    have hdue : dueNow (evs ++ [ev]) = some (view (handshakes evs)).tickets := by
      rw [dueNow_snoc h1, hdn]
      simp [due, Spec.appDataType, Spec.handshakeType, hne, hrest]
    have hc1 := (retrieveAndSend_frame h3).2.2.2.2.1
    refine ⟨?_, ?_, ?_⟩
    · intro _
      rw [hhs, hrest, h4]
      simp only [hc1, hx]
      rfl
    · intro d hd
      rw [hdue] at hd
      cases hd
      refine ⟨by rw [h4], fun _ => ?_⟩
      rcases retrieveAndSend_inv h3 with ⟨_, _, _, h | h⟩ | ⟨_, _, _, _, h5⟩
      · rw [hnr] at h; cases h
      · exact absurd h hty
      · rw [h4]
        simp only [h5, k1, k2, htake]
        rfl
    · rw [hdue]; intro h; cases h
  · -- a handshake record
    have hhs : handshakes (evs ++ [ev]) = handshakes evs ++ [content] := by
      rw [handshakes_snoc, h1]; simp
    rw [hhs] at hs i'
    have hvs : (view (handshakes evs)).sane = true := sane_of_prefix hs
    have ij : Inv a { c with inC := j } (handshakes evs) :=
      Calm.inv (c := c) ⟨rfl, rfl, rfl, rfl, rfl, rfl, rfl, rfl⟩ i
    obtain ⟨p1, p2, p3, p4, p5, p6, p7, p8⟩ := process_inv ij h2
    obtain ⟨x, rfl, x1, x2⟩ := p8 hs
    obtain ⟨q1, q2, q3⟩ := p6 x rfl
    obtain ⟨r1, r2⟩ := p3 hs
    have hxe : x.expecting = !(view (handshakes evs ++ [content])).rest.isEmpty := by
      rw [q2, r1.expecting]
    rcases handleResult_cases h3 with ⟨e, he, _⟩ | ⟨x', he, ⟨k, s, s1, _, _, s2, _⟩ | ⟨k, hk, _⟩⟩
    · cases he
    · exfalso
      have := hf r (by simp [hev])
      rw [s2] at this
      simp at this
      exact s1 this
    · cases he
      have hdue : dueNow (evs ++ [ev]) = (dueNow evs).or
          (if 5 ≤ (view (handshakes evs ++ [content])).tickets.length then
            some ((view (handshakes evs ++ [content])).tickets.take 5) else none) := by
        rw [dueNow_snoc h1, view_append]
        simp only [due, if_true]
      rcases handleTickets_cases hk with ⟨g1, rfl⟩ | ⟨g1, g2, rfl⟩ | ⟨g1, g2, g3, c1, g4, g5⟩
      · -- done before
        obtain ⟨d, hd⟩ : ∃ d, dueNow evs = some d := by
          cases hd : dueNow evs with
          | some d => exact ⟨d, rfl⟩
          | none => exact absurd g1 (t.wait hd).1
        obtain ⟨e1, e2⟩ := t.sent d hd
        refine ⟨fun _ => by rw [hhs]; exact hxe, ?_, ?_⟩
        · rw [hdue, hd, Option.some_or]
          rintro _ ⟨⟩
          refine ⟨g1, fun hns => e2 fun hst => hns ?_⟩
          rw [hhs]; exact FifthStraddled.append hst
        · rw [hdue, hd]; intro h; cases h
      · -- not yet five
        have hdn : dueNow evs = none := by
          cases hd : dueNow evs with
          | none => rfl
          | some d => exact absurd (t.sent d hd).1 g1
        have hnr := i.not_retrieved g1
        have hlt : (view (handshakes evs ++ [content])).tickets.length < 5 := by
          cases hct : x.containsTicket with
          | true =>
            have h5 : ¬ 5 ≤ x.numFull := fun h => g2 ⟨hct, h⟩
            rw [q1, numFull_stored p1 (by rw [p2]; exact hnr), p5 hnr, List.length_take] at h5
            omega
          | false =>
            rw [hct] at x2
            rw [view_append] at x2 ⊢
            rw [no_ticket_heard hvs x2.symm (i.sane hvs).1.incomplete]
            exact dueNow_none_lt hdn
        have hdue' : dueNow (evs ++ [ev]) = none := by
          rw [hdue, hdn, if_neg (by omega)]; rfl
        refine ⟨fun _ => by rw [hhs]; exact hxe, ?_, ?_⟩
        · rw [hdue']; intro d hd; cases hd
        · intro _
          rw [hhs]
          cases hct : x.containsTicket with
          | true => exact ⟨by simp, by simp⟩
          | false =>
            refine ⟨by simpa using g1, ?_⟩
            simp only [Bool.false_eq_true, if_false]
            intro hp
            rw [hct] at x2
            rw [view_append] at x2 ⊢
            rw [no_ticket_heard hvs x2.symm (i.sane hvs).1.incomplete]
            exact (t.wait hdn).2 hp
      · -- the fifth ticket
        have hdn : dueNow evs = none := by
          cases hd : dueNow evs with
          | none => rfl
          | some d => exact absurd (t.sent d hd).1 g1
        have hnr := i.not_retrieved g1
        have h5 : 5 ≤ (view (handshakes evs ++ [content])).tickets.length := by
          rw [q1, numFull_stored p1 (by rw [p2]; exact hnr), p5 hnr, List.length_take] at g3
          omega
        have hlt := dueNow_none_lt hdn
        have hdue' : dueNow (evs ++ [ev]) =
            some ((view (handshakes evs ++ [content])).tickets.take 5) := by
          rw [hdue, hdn, if_pos h5]; rfl
        refine ⟨?_, ?_, ?_⟩
        · rw [hhs]
          intro hls
          have : (view (handshakes evs ++ [content])).rest = [] :=
            Decidable.byContradiction fun hne => hls ⟨_, _, rfl, ⟨hlt, h5⟩, hne⟩
          rw [this, g5]
          rfl
        · rw [hdue']
          rintro _ ⟨⟩
          refine ⟨by rw [g5], fun hns => ?_⟩
          rw [hhs] at hns
          have hty : h'.messageType ≠ .ok Handler.kTicketType :=
            type_ne_ticket r1 fun hh => hns ⟨_, _, List.prefix_refl _, ⟨hlt, h5⟩, hh⟩
          rcases retrieveAndSend_inv g4 with ⟨_, _, _, h | h⟩ | ⟨_, _, _, _, h6⟩
          · simp only at h
            rw [p2] at h
            rw [hnr] at h; cases h
          · exact absurd h hty
          · rw [g5]
            simp only [h6, (i.kept hnr).1, List.nil_append, List.map_cons, List.map_nil,
              p5 hnr]
        · rw [hdue']; intro h; cases h

theorem Reach.tidy {L : Lib} {a c evs} (h : Reach L a c evs)
    (hs : (view (handshakes evs)).sane = true) (hf : NoFailedUpdate evs) : Tidy c evs := by
  obtain ⟨c0, ops, h1, h2⟩ := h
  have := run_snoc_induct (P := fun c evs => Inv a c (handshakes evs) ∧
      ((view (handshakes evs)).sane = true → NoFailedUpdate evs → Tidy c evs))
    ⟨Inv.created h1, fun _ _ => Tidy.created h1⟩
    (fun c evs op c' ev hp hst => ⟨hp.1.step hst, fun h3 h4 => by
      obtain ⟨l, hl⟩ := handshakes_prefix evs ev
      have h5 := h3
      rw [hl] at h5
      exact (hp.2 (sane_of_prefix h5) h4.init).step hp.1 hst h3 h4⟩) h2
  exact this.2 hs hf

/-! ### Counting key updates -/

/-- The completed key updates of the inbound direction. -/
def rekeys (evs : List Event) : Nat := (inTrace evs).count .rekey

theorem inTrace_append (e1 e2 : List Event) : inTrace (e1 ++ e2) = inTrace e1 ++ inTrace e2 := by
  induction e1 with
  | nil => rfl
  | cons e es ih => cases e <;> simp [inTrace, ih]

theorem rekeys_calm {evs ev} (h : ∀ r, ev = .opened r → r.rekey = none) :
    rekeys (evs ++ [ev]) = rekeys evs := by
  unfold rekeys
  rw [inTrace_append, List.count_append]
  cases ev with
  | sealed r => simp [inTrace]
  | outboundUpdated s => simp [inTrace]
  | opened r =>
    simp only [inTrace, Result.uses, h r rfl, List.append_nil]
    cases r.call <;> simp

theorem rekeys_opened {evs r} :
    rekeys (evs ++ [.opened r]) = rekeys evs + if r.rekey = some .ok then 1 else 0 := by
  unfold rekeys
  rw [inTrace_append, List.count_append]
  congr 1
  simp only [inTrace, Result.uses, List.append_nil]
  rw [List.count_append]
  have h2 : List.count Spec.KeyUse.rekey (match r.rekey with
      | some StatusCode.ok => [Spec.KeyUse.rekey]
      | _ => []) = if r.rekey = some .ok then 1 else 0 := by
    by_cases h : r.rekey = some .ok
    · rw [if_pos h, h]; rfl
    · rw [if_neg h]
      split
      · next h' => exact absurd h' h
      · rfl
  rw [← h2]
  cases r.call with
  | none => simp only [List.count_nil, Nat.zero_add]; rfl
  | some k => simp only [List.count_cons, List.count_nil, Nat.zero_add]; simp; rfl

theorem updates_of_accept {ms : List Bytes} {q : Bytes} (h : verdict ms q = .accept)
    (hq : q.head? ≠ some updateType) :
    (ms.filter fun m => m.head? == some updateType).length =
      if Spec.mentionsType updateType ms q then 1 else 0 := by
  induction ms with
  | nil => simp [Spec.mentionsType, hq]
  | cons m ms ih =>
    rw [Handler.mentions_cons]
    unfold verdict at h
    by_cases h4 : m.head? = some ticketType
    · rw [if_pos h4] at h
      have hne : (m.head? == some updateType) = false := by rw [h4]; decide
      rw [List.filter_cons, hne]
      simp only [Bool.false_eq_true, if_false, Bool.false_or]
      split at h
      · cases h
      · exact ih h
    · rw [if_neg h4] at h
      by_cases hu : m.head? = some updateType
      · rw [if_pos hu] at h
        split at h
        · cases h
        · split at h
          · next hb =>
            rw [hb.1]
            simp [hu]
          · cases h
      · rw [if_neg hu] at h; cases h

theorem Reach.rekeys {L : Lib} {a c evs} (h : Reach L a c evs)
    (hs : (view (handshakes evs)).sane = true) (hf : NoFailedUpdate evs)
    (hw : UpdatesWhole (handshakes evs)) :
    Record.rekeys evs = (view (handshakes evs)).updates := by
  obtain ⟨c0, ops, h1, h2⟩ := h
  have := run_snoc_induct (P := fun c evs => Inv a c (handshakes evs) ∧
      ((view (handshakes evs)).sane = true → NoFailedUpdate evs → UpdatesWhole (handshakes evs) →
        Record.rekeys evs = (view (handshakes evs)).updates))
    ⟨Inv.created h1, fun _ _ _ => rfl⟩
    (fun c evs op c' ev hp hst => ⟨hp.1.step hst, fun h3 h4 h5 => by
      obtain ⟨l, hl⟩ := handshakes_prefix evs ev
      have h3' := h3
      rw [hl] at h3'
      have ih := hp.2 (sane_of_prefix h3') h4.init
        (fun pre hpre => h5 pre (hpre.trans (by rw [hl]; exact List.prefix_append _ _)))
      rcases step_cases hst with ⟨g1, g2, g3⟩ | ⟨content, r, j, c1, g1, g2, _, g3, _⟩ |
        ⟨content, f, r, j, h', res, st, g1, g2, _, g3, g4⟩
      · rw [rekeys_calm g3, ih, handshakes_snoc]
        cases hh : heard1 ev with
        | none => simp
        | some t => simp [(g2 t hh).1]
      · subst g2
        rw [rekeys_opened, g3, ih, handshakes_snoc, g1]
        simp [Spec.appDataType, Spec.handshakeType]
      · subst g2
        have hhs : handshakes (evs ++ [.opened r]) = handshakes evs ++ [content] := by
          rw [handshakes_snoc, g1]; simp
        have hw' := h5 _ (List.prefix_refl _)
        rw [hhs] at h3 hw' ⊢
        have hvs : (view (handshakes evs)).sane = true := sane_of_prefix h3
        have ij : Inv a { c with inC := j } (handshakes evs) :=
          Calm.inv (c := c) ⟨rfl, rfl, rfl, rfl, rfl, rfl, rfl, rfl⟩ hp.1
        obtain ⟨_, _, _, _, _, _, _, p8⟩ := process_inv ij g3
        obtain ⟨x, rfl, x1, _⟩ := p8 h3
        have hup : (view (handshakes evs ++ [content])).updates =
            (view (handshakes evs)).updates + if x.containsKeyUpdate then 1 else 0 := by
          rw [view_append] at h3 hw' x1 ⊢
          simp only [View.hear, hvs, if_true, beq_iff_eq] at h3 hw' x1 ⊢
          rw [updates_of_accept h3 hw', x1]
          congr 1
          cases content with
          | nil =>
            rw [List.append_nil, Handler.hsSplit_of_incomplete (hp.1.sane hvs).1.incomplete] at hw' ⊢
            simp only at hw'
            simp [Spec.mentionsType, hw']
          | cons b bs => simp
        rw [rekeys_opened, ih, hup]
        congr 1
        rcases handleResult_cases g4 with ⟨e, he, _⟩ | ⟨x', he, ⟨k, s, s1, _, _, s2, _⟩ | ⟨k, hk, _, s2⟩⟩
        · cases he
        · exfalso
          have := h4 r (by simp)
          rw [s2] at this
          simp at this
          exact s1 this
        · cases he
          rw [s2]
          cases x.containsKeyUpdate <;> simp⟩) h2
  exact this.2 hs hf hw

end S2A.Record
