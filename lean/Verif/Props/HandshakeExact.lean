import Verif.Lemmas.UpdatePieces
import Verif.Props.Handshake
/-
What exactly becomes of tickets, key updates and application data for every way in which the
peer may cut its handshake messages into records: the cases that the `_partial` theorems C25, C26
and C30 (Props/Handshake.lean) leave out.
-/
namespace S2A.Record
open HalfConn (AeadCall exec_bind_eq_ok)
open Spec (View view hsSplit verdict ticketType updateType due handed Straddling updateRecords
  carriesUpdate)
open Demo

set_option maxRecDepth 100000

/-! ## C25: which tickets are lost -/

/-- As long as messages are in order and no key update failed in the crypto library: what was
handed to the ticket sender is what `Spec.handed` says. -/
theorem C25_sent_exactly (L : Lib) (a : CreateArgs) (c : Conn) (evs : List Event)
    (hr : Reach L a c evs) (ho : InOrder evs) (hf : NoFailedUpdate evs) :
    c.sent.map (·.tickets) = (handed .start (heard evs)).toList :=
  (hr.exact ho hf).sent

/-- So tickets that are due have been lost exactly if the record that completed the fifth ticket
began another ticket, and no application data had come before, after one to four tickets. -/
theorem C25_lost_iff (L : Lib) (a : CreateArgs) (c : Conn) (evs : List Event) (d : List Bytes)
    (hr : Reach L a c evs) (ho : InOrder evs) (hf : NoFailedUpdate evs)
    (hd : due .start (heard evs) = some d) :
    c.sent = [] ↔ ∃ pre content post, heard evs = pre ++ (content, Spec.handshakeType) :: post ∧
      due .start pre = none ∧
      5 ≤ (view (Spec.handshakeContents pre ++ [content])).tickets.length ∧
      (view (Spec.handshakeContents pre ++ [content])).rest.head? = some ticketType := by
  have hx := (hr.exact ho hf).sent
  have key : ∀ (v : View) (rs : List (Bytes × UInt8)) (d : List Bytes), due v rs = some d →
      (handed v rs = none ↔ ∃ pre content post, rs = pre ++ (content, Spec.handshakeType) :: post ∧
        due v pre = none ∧
        5 ≤ ((Spec.handshakeContents pre ++ [content]).foldl View.hear v).tickets.length ∧
        ((Spec.handshakeContents pre ++ [content]).foldl View.hear v).rest.head? =
          some ticketType) := by
    intro v rs
    induction rs generalizing v with
    | nil => intro d h; cases h
    | cons y rs ih =>
      obtain ⟨content, t⟩ := y
      intro d h
      rw [due] at h
      rw [handed]
      by_cases ht : t = Spec.handshakeType
      · subst ht
        simp only [if_true] at h ⊢
        by_cases h5 : 5 ≤ (v.hear content).tickets.length
        · rw [if_pos h5]
          constructor
          · intro h6
            by_cases hq : (v.hear content).rest.head? = some ticketType
            · exact ⟨[], content, rs, rfl, rfl, h5, hq⟩
            · rw [if_neg hq] at h6; cases h6
          · rintro ⟨pre, content', post, e, e1, e2, e3⟩
            cases pre with
            | nil =>
              cases e
              exact if_pos (c := (v.hear content).rest.head? = some ticketType) e3
            | cons z pre =>
              cases e
              rw [due] at e1
              simp only [if_true, if_pos h5] at e1
              cases e1
        · rw [if_neg h5] at h ⊢
          rw [ih _ d h]
          constructor
          · rintro ⟨pre, content', post, e, e1, e2, e3⟩
            refine ⟨(content, Spec.handshakeType) :: pre, content', post, by rw [e]; rfl, ?_, ?_, ?_⟩
            · rw [due]
              simp only [if_true, if_neg h5]
              exact e1
            · simpa [Spec.handshakeContents] using e2
            · simpa [Spec.handshakeContents] using e3
          · rintro ⟨pre, content', post, e, e1, e2, e3⟩
            cases pre with
            | nil =>
              cases e
              exact absurd e2 h5
            | cons z pre =>
              cases e
              rw [due] at e1
              simp only [if_true, if_neg h5] at e1
              refine ⟨pre, content', post, rfl, e1, ?_, ?_⟩
              · simpa [Spec.handshakeContents] using e2
              · simpa [Spec.handshakeContents] using e3
      · simp only [if_neg ht] at h ⊢
        by_cases h5 : t = Spec.appDataType ∧ v.tickets ≠ [] ∧ v.rest = []
        · rw [if_pos h5]
          constructor
          · intro h; cases h
          · rintro ⟨pre, content', post, e, e1, e2, e3⟩
            cases pre with
            | nil =>
              cases e
              exact absurd rfl ht
            | cons z pre =>
              cases e
              rw [due] at e1
              simp only [if_neg ht, if_pos h5] at e1
              cases e1
        · rw [if_neg h5] at h ⊢
          rw [ih _ d h]
          constructor
          · rintro ⟨pre, content', post, e, e1, e2, e3⟩
            refine ⟨(content, t) :: pre, content', post, by rw [e]; rfl, ?_, ?_, ?_⟩
            · rw [due]
              simp only [if_neg ht, if_neg h5]
              exact e1
            · simpa [Spec.handshakeContents, ht] using e2
            · simpa [Spec.handshakeContents, ht] using e3
          · rintro ⟨pre, content', post, e, e1, e2, e3⟩
            cases pre with
            | nil =>
              cases e
              exact absurd rfl ht
            | cons z pre =>
              cases e
              rw [due] at e1
              simp only [if_neg ht, if_neg h5] at e1
              refine ⟨pre, content', post, rfl, e1, ?_, ?_⟩
              · simpa [Spec.handshakeContents, ht] using e2
              · simpa [Spec.handshakeContents, ht] using e3
  rw [← List.map_eq_nil_iff (f := (·.tickets)), hx]
  unfold handedNow
  rw [Option.toList_eq_nil_iff]
  exact key .start (heard evs) d hd

/-- Three tickets and application data, then five more, the last of which is straddled: the
first three are handed on.  Without the application data, nothing is. -/
example : handed .start [([4, 0, 0, 1, 1, 4, 0, 0, 1, 2, 4, 0, 0, 1, 3], 22), ([9], 23),
      ([4, 0, 0, 1, 4, 4, 0, 0, 1, 5, 4], 22)] =
    some [[4, 0, 0, 1, 1], [4, 0, 0, 1, 2], [4, 0, 0, 1, 3]] ∧
    handed .start [([4, 0, 0, 1, 1, 4, 0, 0, 1, 2, 4, 0, 0, 1, 3], 22),
      ([4, 0, 0, 1, 4, 4, 0, 0, 1, 5, 4], 22), ([9], 23)] = none ∧
    (∃ c evs, Reach Lib.toy rightArgs c evs ∧ InOrder evs ∧
      heard evs = [([4, 0, 0, 1, 1, 4, 0, 0, 1, 2, 4, 0, 0, 1, 3], 22),
        ([4, 0, 0, 1, 4, 4, 0, 0, 1, 5, 4], 22), ([9], 23)]) :=
  ⟨by decide +kernel, by decide +kernel,
    ⟨_, _, ⟨right, recvAll (pos 0) [[4, 0, 0, 1, 1, 4, 0, 0, 1, 2, 4, 0, 0, 1, 3, 22],
      [4, 0, 0, 1, 4, 4, 0, 0, 1, 5, 4, 22], [9, 23]], right_created, rfl⟩,
      by decide +kernel, by decide +kernel⟩⟩

/-! ## C26: how often the key advances -/

/-- As long as messages are in order and no key update failed in the crypto library, the inbound
key was advanced once for each record that has a byte of a key update message. -/
theorem C26_advances_exactly (L : Lib) (a : CreateArgs) (c : Conn) (evs : List Event)
    (hr : Reach L a c evs) (ho : InOrder evs) (hf : NoFailedUpdate evs) :
    (inTrace evs).count .rekey = updateRecords .start (handshakes evs) :=
  hr.rekeys_exact ho hf

/-- In particular, a key update message cut into `n` pieces, each in a record of its own, advances
the key `n` times. -/
theorem C26_cut_update_advances_per_piece (L : Lib) (a : CreateArgs) (c : Conn)
    (evs : List Event) (before pieces : List Bytes) (body : Bytes) (hr : Reach L a c evs)
    (hf : NoFailedUpdate evs) (hh : handshakes evs = before ++ pieces)
    (hb : (view before).sane = true) (hrest : (view before).rest = [])
    (hm : pieces.flatten = Spec.hsMessage updateType body) (hne : body ≠ [])
    (hlt : body.length < 2 ^ 24) (hp : ∀ p ∈ pieces, p ≠ []) :
    (inTrace evs).count .rekey = updateRecords .start before + pieces.length := by
  have hml : (Spec.hsMessage updateType body).length =
      4 + Handler.bodyLen (Spec.hsMessage updateType body) := by
    simp only [Spec.hsMessage, List.length_cons, Handler.bodyLen, Spec.len24, UInt8.toNat_ofNat']
    omega
  have h5 : (Spec.hsMessage updateType body).length ≠ 4 := by
    simpa [Spec.hsMessage] using hne
  obtain ⟨k1, k2⟩ := updateRecords_pieces (v := view before) (pieces := pieces) hb hml h5 rfl
    (by rw [hrest, hm]; rfl) hp
  have hsane : (view (handshakes evs)).sane = true := by
    rw [hh]
    unfold view
    rw [List.foldl_append]
    exact k2
  rw [C26_advances_exactly L a c evs hr hsane hf, hh, updateRecords_append]
  have : (before.foldl View.hear View.start) = view before := rfl
  rw [this, k1]

/-- A key update cut into three records, after a whole one. -/
example : ∃ c evs, Reach Lib.toy rightArgs c evs ∧
    handshakes evs = [[24, 0, 0, 1, 1]] ++ [[24], [0, 0], [1, 0]] ∧
    ([[24], [0, 0], [1, 0]] : List Bytes).flatten = Spec.hsMessage updateType [0] ∧
    (inTrace evs).count .rekey = 4 ∧
    (evs.all fun | .opened r => r.rekey == some .ok | _ => false) :=
  ⟨_, _, ⟨right, recvs [(pos 0, [24, 0, 0, 1, 1, 22]), (upd (pos 0), [24, 22]),
      (upd (upd (pos 0)), [0, 0, 22]), (upd (upd (upd (pos 0))), [1, 0, 22])], right_created, rfl⟩,
    by decide +kernel, by decide +kernel, by decide +kernel, by decide +kernel⟩

/-! ## C30: when application data is accepted inside a message -/

/-- Messages in order, no key update failed in the crypto library, one message incomplete: an
authentic record of application data is accepted exactly if the last handshake record completed
the fifth ticket, while none had been due before. -/
theorem C30_accepted_inside_iff (L : Lib) (a : CreateArgs) (c c' : Conn) (evs : List Event)
    (f : Fault) (header : Iovec) (payload : List Iovec) (out : Iovec) (r : Result)
    (content : Bytes) (hr : Reach L a c evs) (ho : InOrder evs) (hf : NoFailedUpdate evs)
    (hq : (hsSplit (stream evs)).2 ≠ []) (h : unprotect L f c header payload out = .ok (c', r))
    (hc : r.record = some (content, Spec.appDataType)) :
    r.code = .ok ↔ Straddling (heard evs) := by
  have x := hr.exact ho hf
  rw [← (view_stream _ ho).2.2] at hq
  have hexp : c.expecting = true ↔ ¬ Straddling (heard evs) := by
    rw [x.exp]; simp [hq]
  rcases unprotect_shape h with ⟨g, _⟩ | ⟨i, call, p, tail, _, g⟩
  · rw [Result.record, g] at hc; cases hc
  · have hin := dispatch_inner g
    rw [Result.record, hin, Option.bind_some] at hc
    rw [dispatch_appData _ _ _ _ _ _ hc] at g
    by_cases he : c.expecting = true
    · rw [if_pos (c := c.expecting = true) he] at g
      cases g
      simp [hexp.1 he]
    · rw [if_neg (c := c.expecting = true) he] at g
      have hst : Straddling (heard evs) := by
        rcases Classical.em (Straddling (heard evs)) with h | h
        · exact h
        · exact absurd (hexp.2 h) he
      have : r.code = .ok := by
        split at g
        · simp only [exec_bind_eq_ok] at g
          obtain ⟨y, _, g⟩ := g
          cases g
          rfl
        · cases g; rfl
      simp [this, hst]

/-- Both cases happen: `C30_app_data_inside_message_after_fifth`, and this one. -/
example : ∃ c e r, Reach Lib.toy rightArgs c [e, .opened r] ∧ InOrder [e] ∧
    (hsSplit (stream [e])).2 = [4, 0] ∧ r.record = some ([9], 23) ∧ r.code = .invalidRecord :=
  ⟨_, _, _, ⟨right, recvAll (pos 0) [[4, 0, 22], [9, 23]], right_created, rfl⟩,
    by decide +kernel, by decide +kernel, by decide +kernel, by decide +kernel⟩

end S2A.Record
