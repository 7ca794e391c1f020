import Verif.Spec.Exact
import Verif.Lemmas.Tidy
namespace S2A.Record
open HalfConn (exec_bind_eq_ok AeadCall)
open Handler (Rel TInv Wedged stored keep)
open Spec (View view isTicket hsSplit verdict ticketType updateType due handed Straddling
  updateRecords carriesUpdate handshakeContents)

/-! ### What is handed on -/

theorem handed_none (v : View) (rs : List (Bytes × UInt8)) (h : due v rs = none) :
    handed v rs = none := by
  induction rs generalizing v with
  | nil => rfl
  | cons y rs ih =>
    obtain ⟨content, t⟩ := y
    rw [due] at h
    rw [handed]
    by_cases ht : t = Spec.handshakeType
    · simp only [ht, if_true] at h ⊢
      by_cases h5 : 5 ≤ (v.hear content).tickets.length
      · simp [h5] at h
      · simp only [h5, if_false] at h ⊢; exact ih _ h
    · simp only [ht, if_false] at h ⊢
      by_cases h5 : t = Spec.appDataType ∧ v.tickets ≠ [] ∧ v.rest = []
      · simp [h5] at h
      · simp only [h5, if_false] at h ⊢; exact ih _ h

theorem handed_snoc (v : View) (rs : List (Bytes × UInt8)) (x : Bytes × UInt8) :
    handed v (rs ++ [x]) = if (due v rs).isSome then handed v rs
      else handed ((hsOf rs).foldl View.hear v) [x] := by
  induction rs generalizing v with
  | nil => rfl
  | cons y rs ih =>
    obtain ⟨content, t⟩ := y
    rw [List.cons_append, handed, due, handed]
    by_cases h : t = Spec.handshakeType
    · simp only [h, if_true]
      have : hsOf ((content, Spec.handshakeType) :: rs) = content :: hsOf rs := by simp [hsOf]
      rw [this, List.foldl_cons]
      by_cases h5 : 5 ≤ (v.hear content).tickets.length
      · simp [h5]
      · simp only [h5, if_false]; exact ih _
    · have : hsOf ((content, t) :: rs) = hsOf rs := by simp [hsOf, h]
      simp only [h, if_false, this]
      by_cases h5 : t = Spec.appDataType ∧ v.tickets ≠ [] ∧ v.rest = []
      · simp [h5]
      · simp only [h5, if_false]; exact ih _

abbrev handedNow (evs : List Event) : Option (List Bytes) := handed .start (heard evs)

theorem handedNow_calm {evs ev} (h : heard1 ev = none) :
    handedNow (evs ++ [ev]) = handedNow evs := by
  unfold handedNow; rw [heard_snoc, h]; simp

theorem handedNow_some {evs ev d} (h : dueNow evs = some d) :
    handedNow (evs ++ [ev]) = handedNow evs := by
  cases hh : heard1 ev with
  | none => exact handedNow_calm hh
  | some x =>
    unfold handedNow
    rw [heard_snoc, hh, Option.toList_some, handed_snoc]
    unfold dueNow at h
    simp [h]

theorem handedNow_snoc {evs ev x} (hd : dueNow evs = none) (h : heard1 ev = some x) :
    handedNow (evs ++ [ev]) = handed (view (handshakes evs)) [x] := by
  unfold handedNow
  rw [heard_snoc, h, Option.toList_some, handed_snoc]
  unfold dueNow at hd
  rw [hd]
  rfl

/-! ### Straddling -/

theorem straddling_other {rs : List (Bytes × UInt8)} {x : Bytes × UInt8}
    (hx : x.2 ≠ Spec.handshakeType) : Straddling (rs ++ [x]) ↔ Straddling rs := by
  constructor
  · rintro ⟨pre, content, post, e, h1, h2⟩
    rcases List.eq_nil_or_concat post with rfl | ⟨post', y, rfl⟩
    · have e1 := congrArg List.getLast? e
      simp at e1
      rw [e1] at hx
      exact absurd rfl hx
    · rw [List.concat_eq_append, ← List.cons_append, ← List.append_assoc] at e
      obtain ⟨e1, e2⟩ := List.append_inj' e rfl
      exact ⟨pre, content, post', e1, fun z hz => h1 z (by simp [hz]), h2⟩
  · rintro ⟨pre, content, post, e, h1, h2⟩
    refine ⟨pre, content, post ++ [x], by rw [e]; simp, ?_, h2⟩
    intro z hz
    rcases List.mem_append.1 hz with h | h
    · exact h1 z h
    · rw [List.mem_singleton.1 h]; exact hx

theorem straddling_handshake {rs : List (Bytes × UInt8)} {content : Bytes} :
    Straddling (rs ++ [(content, Spec.handshakeType)]) ↔ due .start rs = none ∧
      5 ≤ (view (hsOf rs ++ [content])).tickets.length ∧ (view (hsOf rs ++ [content])).rest ≠ [] := by
  constructor
  · rintro ⟨pre, content', post, e, h1, h2⟩
    rcases List.eq_nil_or_concat post with rfl | ⟨post', y, rfl⟩
    · obtain ⟨e1, e2⟩ := List.append_inj' e rfl
      cases e2
      subst e1
      exact h2
    · exfalso
      rw [List.concat_eq_append, ← List.cons_append, ← List.append_assoc] at e
      obtain ⟨e1, e2⟩ := List.append_inj' e rfl
      cases e2
      exact h1 (content, Spec.handshakeType) (by simp) rfl
  · intro h
    exact ⟨rs, content, [], rfl, by simp, h⟩

/-! ### The invariant -/

/-- Tickets handed on and the flag for incomplete messages, as long as everything is in order. -/
structure Exact (c : Conn) (evs : List Event) : Prop where
  sent : c.sent.map (·.tickets) = (handedNow evs).toList
  exp : c.expecting = true ↔ (view (handshakes evs)).rest ≠ [] ∧ ¬ Straddling (heard evs)

theorem Exact.created {L : Lib} {a c} (h : Created L a c) : Exact c [] := by
  have t := Tidy.created h
  have i := Inv.created h
  refine ⟨?_, ?_⟩
  · rw [(i.kept (i.not_retrieved (t.wait rfl).1)).1]; rfl
  · have := t.exp (by rintro ⟨pre, r, e, _⟩; simp [handshakes, heard] at e)
    rw [this]
    simp [handshakes, heard, view, View.start]

theorem Exact.step {L : Lib} {a c evs op c' ev} (i : Inv a c (handshakes evs))
    (t : Tidy c evs) (x : Exact c evs) (h : step L c op = .ok (c', ev))
    (hs : (view (handshakes (evs ++ [ev]))).sane = true) (hf : NoFailedUpdate (evs ++ [ev])) :
    Exact c' (evs ++ [ev]) := by
  have t' : Tidy c' (evs ++ [ev]) := t.step i h hs hf
  have i' : Inv a c' (handshakes (evs ++ [ev])) := i.step h
  rcases step_cases h with ⟨h1, h2, _⟩ | ⟨content, r, j, c1, h1, _, _, _, hx, h2, h3, h4⟩ |
    ⟨content, f, r, j, h', res, st, h1, hev, _, h2, h3⟩
  · -- nothing happens
    have hhs : handshakes (evs ++ [ev]) = handshakes evs := by
      rw [handshakes_snoc]
      cases hh : heard1 ev with
      | none => simp
      | some t => simp [(h2 t hh).1]
    have hstr : Straddling (heard (evs ++ [ev])) ↔ Straddling (heard evs) := by
      rw [heard_snoc]
      cases hh : heard1 ev with
      | none => simp
      | some y => exact straddling_other (h2 y hh).1
    refine ⟨?_, ?_⟩
    · rw [h1.sent, x.sent]
      cases hd : dueNow evs with
      | some d => rw [handedNow_some hd]
      | none =>
        cases hd' : dueNow (evs ++ [ev]) with
        | none =>
          unfold handedNow
          rw [handed_none _ _ hd, handed_none _ _ hd']
        | some d =>
          have := (t'.sent d hd').1
          rw [h1.phase] at this
          exact absurd this (t.wait hd).1
    · rw [h1.expecting, hhs, hstr]; exact x.exp
  · -- application data ends the ticket phase
    have hhs : handshakes (evs ++ [ev]) = handshakes evs := by
      rw [handshakes_snoc, h1]; simp [Spec.appDataType, Spec.handshakeType]
    have hstr : Straddling (heard (evs ++ [ev])) ↔ Straddling (heard evs) := by
      rw [heard_snoc, h1]
      exact straddling_other (by simp [Spec.appDataType, Spec.handshakeType])
    have hc1 := (retrieveAndSend_frame h3).2.2.2.2.1
    have hdn : dueNow evs = none := by
      cases hd : dueNow evs with
      | none => rfl
      | some d => have := (t.sent d hd).1; rw [h2] at this; cases this
    have hlt := dueNow_none_lt hdn
    refine ⟨?_, ?_⟩
    · have hls : ¬ Spec.LastStraddles (handshakes evs) := by
        rintro ⟨pre, r, e, h5, _⟩
        have := h5.2
        rw [← e] at this
        omega
      have he := t.exp hls
      rw [hx] at he
      have hrest : (view (handshakes evs)).rest = [] := by
        cases hr : (view (handshakes evs)).rest with
        | nil => rfl
        | cons x xs => rw [hr] at he; cases he
      rw [hhs] at hs
      obtain ⟨hrel, _⟩ := i.sane hs
      have hnr := i.not_retrieved (by rw [h2]; simp)
      obtain ⟨k1, k2, k3⟩ := i.kept hnr
      have htake : (view (handshakes evs)).tickets.take 5 = (view (handshakes evs)).tickets :=
        List.take_of_length_le (by omega)
      have hty : c.handler.messageType ≠ .ok Handler.kTicketType :=
        type_ne_ticket hrel (by rw [hrest]; simp)
      have hne : (view (handshakes evs)).tickets ≠ [] := by
        rcases i.receiving h2 with h | h
        · rw [k2, htake] at h; exact h
        · exact absurd h hty
      rw [handedNow_snoc hdn h1]
      rcases retrieveAndSend_inv h3 with ⟨_, _, _, h | h⟩ | ⟨_, _, _, _, h5⟩
      · rw [hnr] at h; cases h
      · exact absurd h hty
      · rw [h4]
        simp only [h5, k1, k2, htake]
        simp [handed, Spec.appDataType, Spec.handshakeType, hne, hrest]
    · rw [h4, hhs, hstr]
      simp only [hc1]
      exact x.exp
  · -- a handshake record
    have hhs : handshakes (evs ++ [ev]) = handshakes evs ++ [content] := by
      rw [handshakes_snoc, h1]; simp
    have hstr : Straddling (heard (evs ++ [ev])) ↔ dueNow evs = none ∧
        5 ≤ (view (handshakes evs ++ [content])).tickets.length ∧
        (view (handshakes evs ++ [content])).rest ≠ [] := by
      rw [heard_snoc, h1]
      exact straddling_handshake
    rw [hhs] at hs i'
    have hvs : (view (handshakes evs)).sane = true := sane_of_prefix hs
    have ij : Inv a { c with inC := j } (handshakes evs) :=
      Calm.inv (c := c) ⟨rfl, rfl, rfl, rfl, rfl, rfl, rfl, rfl⟩ i
    obtain ⟨p1, p2, p3, p4, p5, p6, p7, p8⟩ := process_inv ij h2
    obtain ⟨y, rfl, x1, x2⟩ := p8 hs
    obtain ⟨q1, q2, q3⟩ := p6 y rfl
    obtain ⟨r1, r2⟩ := p3 hs
    have hxe : y.expecting = true ↔ (view (handshakes evs ++ [content])).rest ≠ [] := by
      rw [q2, r1.expecting]; simp
    rcases handleResult_cases h3 with ⟨e, he, _⟩ | ⟨x', he, ⟨k, s, s1, _, _, s2, _⟩ | ⟨k, hk, _⟩⟩
    · cases he
    · exfalso
      have := hf r (by simp [hev])
      rw [s2] at this
      simp at this
      exact s1 this
    · cases he
      rcases handleTickets_cases hk with ⟨g1, rfl⟩ | ⟨g1, g2, rfl⟩ | ⟨g1, g2, g3, c1, g4, g5⟩
      · -- done before
        obtain ⟨d, hd⟩ : ∃ d, dueNow evs = some d := by
          cases hd : dueNow evs with
          | some d => exact ⟨d, rfl⟩
          | none => exact absurd g1 (t.wait hd).1
        refine ⟨by rw [handedNow_some hd]; exact x.sent, ?_⟩
        rw [hhs, hstr, hd]
        simpa using hxe
      · -- not yet five
        have hdn : dueNow evs = none := by
          cases hd : dueNow evs with
          | none => rfl
          | some d => exact absurd (t.sent d hd).1 g1
        have hnd : dueNow (evs ++ [ev]) = none := by
          cases hd : dueNow (evs ++ [ev]) with
          | none => rfl
          | some d =>
            have := (t'.sent d hd).1
            simp only at this
            split at this
            · cases this
            · exact absurd this g1
        refine ⟨?_, ?_⟩
        · unfold handedNow
          rw [handed_none _ _ hnd]
          have := x.sent
          unfold handedNow at this
          rw [handed_none _ _ hdn] at this
          exact this
        · have hlt := dueNow_none_lt hnd
          rw [hhs] at hlt
          rw [hhs, hstr]
          have : ¬ (5 ≤ (view (handshakes evs ++ [content])).tickets.length) := by omega
          simp only [this, false_and, and_false, not_false_eq_true, and_true]
          exact hxe
      · -- the fifth ticket
        have hdn : dueNow evs = none := by
          cases hd : dueNow evs with
          | none => rfl
          | some d => exact absurd (t.sent d hd).1 g1
        have hnr := i.not_retrieved g1
        have h5 : 5 ≤ (view (handshakes evs ++ [content])).tickets.length := by
          rw [q1, numFull_stored p1 (by rw [p2]; exact hnr), p5 hnr, List.length_take] at g3
          omega
        refine ⟨?_, ?_⟩
        · rw [handedNow_snoc hdn h1]
          simp only [handed, if_true]
          rw [← view_append, if_pos h5]
          by_cases hq : (view (handshakes evs ++ [content])).rest.head? = some ticketType
          · rw [if_pos hq]
            have hty : h'.messageType = .ok Handler.kTicketType := by
              cases hrest : (view (handshakes evs ++ [content])).rest with
              | nil => rw [hrest] at hq; cases hq
              | cons t p =>
                rw [hrest] at hq r1
                cases hq
                rw [r1.type]
                rfl
            rcases retrieveAndSend_inv g4 with ⟨_, h6, _, _⟩ | ⟨_, h6, _⟩
            · rw [g5]
              simp only [h6, (i.kept hnr).1]
              rfl
            · exact absurd hty h6
          · rw [if_neg hq]
            have hty := type_ne_ticket r1 hq
            rcases retrieveAndSend_inv g4 with ⟨_, _, _, h | h⟩ | ⟨_, _, _, _, h6⟩
            · simp only at h
              rw [p2] at h
              rw [hnr] at h; cases h
            · exact absurd h hty
            · rw [g5]
              simp only [h6, (i.kept hnr).1, List.nil_append, List.map_cons, List.map_nil,
                p5 hnr]
              rfl
        · rw [hhs, hstr, g5]
          simp [hdn, h5]

theorem Reach.exact {L : Lib} {a c evs} (h : Reach L a c evs)
    (hs : (view (handshakes evs)).sane = true) (hf : NoFailedUpdate evs) : Exact c evs := by
  obtain ⟨c0, ops, h1, h2⟩ := h
  have := run_snoc_induct (P := fun c evs => Inv a c (handshakes evs) ∧
      ((view (handshakes evs)).sane = true → NoFailedUpdate evs → Tidy c evs ∧ Exact c evs))
    ⟨Inv.created h1, fun _ _ => ⟨Tidy.created h1, Exact.created h1⟩⟩
    (fun c evs op c' ev hp hst => ⟨hp.1.step hst, fun h3 h4 => by
      obtain ⟨l, hl⟩ := handshakes_prefix evs ev
      have h5 := h3
      rw [hl] at h5
      have ih := hp.2 (sane_of_prefix h5) h4.init
      exact ⟨ih.1.step hp.1 hst h3 h4, ih.2.step hp.1 ih.1 hst h3 h4⟩⟩) h2
  exact (this.2 hs hf).2

/-! ### Counting key updates -/

theorem updateRecords_append (v : View) (xs ys : List Bytes) :
    updateRecords v (xs ++ ys) = updateRecords v xs + updateRecords (xs.foldl View.hear v) ys := by
  induction xs generalizing v with
  | nil => simp [updateRecords]
  | cons x xs ih =>
    rw [List.cons_append, updateRecords, updateRecords, ih, List.foldl_cons]
    omega

theorem Reach.rekeys_exact {L : Lib} {a c evs} (h : Reach L a c evs)
    (hs : (view (handshakes evs)).sane = true) (hf : NoFailedUpdate evs) :
    Record.rekeys evs = updateRecords .start (handshakes evs) := by
  obtain ⟨c0, ops, h1, h2⟩ := h
  have := run_snoc_induct (P := fun c evs => Inv a c (handshakes evs) ∧
      ((view (handshakes evs)).sane = true → NoFailedUpdate evs →
        Record.rekeys evs = updateRecords .start (handshakes evs)))
    ⟨Inv.created h1, fun _ _ => rfl⟩
    (fun c evs op c' ev hp hst => ⟨hp.1.step hst, fun h3 h4 => by
      obtain ⟨l, hl⟩ := handshakes_prefix evs ev
      have h3' := h3
      rw [hl] at h3'
      have ih := hp.2 (sane_of_prefix h3') h4.init
      rcases step_cases hst with ⟨g1, g2, g3⟩ | ⟨content, r, j, c1, g1, g2, _, g3, _⟩ |
        ⟨content, f, r, j, h', res, st, g1, g2, _, g3, g4⟩
      · rw [rekeys_calm g3, ih, handshakes_snoc]
        cases hh : heard1 ev with
        | none => simp
        | some t => simp [(g2 t hh).1]
      · subst g2
        rw [rekeys_opened, g3, ih, handshakes_snoc, g1]
        simp [Spec.appDataType, Spec.handshakeType]
      · subst g2
        have hhs : handshakes (evs ++ [.opened r]) = handshakes evs ++ [content] := by
          rw [handshakes_snoc, g1]; simp
        rw [hhs] at h3 ⊢
        have hvs : (view (handshakes evs)).sane = true := sane_of_prefix h3
        have ij : Inv a { c with inC := j } (handshakes evs) :=
          Calm.inv (c := c) ⟨rfl, rfl, rfl, rfl, rfl, rfl, rfl, rfl⟩ hp.1
        obtain ⟨_, _, _, _, _, _, _, p8⟩ := process_inv ij g3
        obtain ⟨x, rfl, x1, _⟩ := p8 h3
        have hup : updateRecords .start (handshakes evs ++ [content]) =
            updateRecords .start (handshakes evs) + if x.containsKeyUpdate then 1 else 0 := by
          rw [updateRecords_append, x1, view_append]
          simp only [updateRecords, Nat.add_zero, carriesUpdate, View.hear, hvs, if_true]
          rfl
        rw [rekeys_opened, ih, hup]
        congr 1
        rcases handleResult_cases g4 with ⟨e, he, _⟩ | ⟨x', he, ⟨k, s, s1, _, _, s2, _⟩ | ⟨k, hk, _, s2⟩⟩
        · cases he
        · exfalso
          have := h4 r (by simp)
          rw [s2] at this
          simp at this
          exact s1 this
        · cases he
          rw [s2]
          cases x.containsKeyUpdate <;> simp⟩) h2
  exact this.2 hs hf

end S2A.Record
