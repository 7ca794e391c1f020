import Verif.Lemmas.TextSays
/-
The texts for alerts.
-/
namespace S2A
open HalfConn (exec_bind_eq_ok)

theorem append_ne_of_head {p t u : String} {a b : Char} (hp : p.toList.head? = some a)
    (hu : u.toList.head? = some b) (h : a ≠ b) : p ++ t ≠ u := by
  intro e
  have : (p ++ t).toList.head? = some a := by
    rw [String.toList_append, List.head?_append, hp]
    rfl
  rw [e, hu] at this
  exact h (Option.some.inj this).symm

namespace Record

/-- The text for any alert but a closing one. -/
abbrev alertText : String := "Received alert of type 21."

/-- The texts for closing alerts. -/
abbrev closeTexts : List String :=
  ["Received close notify alert.", "Close notify alert has been received. Close the connection."]

theorem dispatchT_alert {L : Lib} {f : KeyFault} {c : Conn} {call : Option HalfConn.AeadCall}
    {pt : Bytes} {w : Nat} {x : Conn × Result} {said : Said}
    (h : dispatchT L f c call pt w = .ok (x, said)) :
    (x.2.code = .alertOther → said = ⟨[alertText], alertText⟩) ∧
    (x.2.code ≠ .alertOther → said.message ≠ alertText) ∧
    (x.2.code = .alertCloseNotify ↔ said.message ∈ closeTexts) := by
  unfold dispatchT at h
  simp only [exec_bind_eq_ok] at h
  obtain ⟨y, _, h⟩ := h
  split at h
  · cases h; exact ⟨by simp, by simp [alertText], by simp⟩
  · next n t _ =>
    split at h
    · next ht =>
      subst ht
      split at h
      · cases h; exact ⟨by simp, by simp [alertText], by simp⟩
      · split at h
        · cases h
        · split at h
          · cases h; exact ⟨by simp, by simp [alertText], by simp⟩
          · cases h
            have e : "Received alert of type " ++ toString kAlert.toNat ++ "." = alertText := by
              decide
            refine ⟨fun _ => by rw [e], by simp, ?_⟩
            simp only [e]
            simp [alertText]
    split at h
    · simp only [exec_bind_eq_ok] at h
      obtain ⟨y, _, z, h1, h⟩ := h
      split at h
      · cases h
        have hd : ∀ u : String, u.toList.head? = some 'R' →
            "Failed to process handshake message result: " ++ z.2.message ≠ u :=
          fun u hu => append_ne_of_head (a := 'F') (by decide) hu (by decide)
        have hc : ∀ u : String, u.toList.head? = some 'C' →
            "Failed to process handshake message result: " ++ z.2.message ≠ u :=
          fun u hu => append_ne_of_head (a := 'F') (by decide) hu (by decide)
        refine ⟨by simp, fun _ => hd _ (by decide), ?_⟩
        simp [hd "Received close notify alert." (by decide),
          hc "Close notify alert has been received. Close the connection." (by decide)]
      · cases h; exact ⟨by simp, by simp [alertText], by simp⟩
    split at h
    · split at h
      · cases h; exact ⟨by simp, by simp [alertText], by simp⟩
      · split at h
        · simp only [exec_bind_eq_ok] at h
          obtain ⟨y, h1, h⟩ := h
          cases h; exact ⟨by simp, by simp [alertText], by simp⟩
        · cases h; exact ⟨by simp, by simp [alertText], by simp⟩
    · cases h
      have hd : ∀ u : String, u.toList.head? = some 'R' ∨ u.toList.head? = some 'C' →
          "TLS record type byte " ++ toString t.toNat ++ " is invalid." ≠ u := by
        intro u hu
        rw [String.append_assoc]
        rcases hu with hu | hu <;>
          exact append_ne_of_head (a := 'T') (by decide) hu (by decide)
      generalize "TLS record type byte " ++ toString t.toNat ++ " is invalid." = m at hd
      refine ⟨by simp, fun _ => hd _ (Or.inl (by decide)), ?_⟩
      simp [hd "Received close notify alert." (Or.inl (by decide)),
        hd "Close notify alert has been received. Close the connection." (Or.inr (by decide))]

theorem unprotectT_alert {L : Lib} {f : Fault} {w : String} {c : Conn}
    {header : Iovec} {payload : List Iovec} {out : Iovec} {x : Conn × Result} {said : Said}
    (h : unprotectT L f w c header payload out = .ok (x, said)) :
    (x.2.code = .alertOther → said = ⟨[alertText], alertText⟩) ∧
    (x.2.code ≠ .alertOther → said.message ≠ alertText) ∧
    (x.2.code = .alertCloseNotify ↔ said.message ∈ closeTexts) := by
  unfold unprotectT at h
  simp only at h
  split at h
  · cases h; exact ⟨by simp, by simp [alertText], by simp⟩
  split at h
  · cases h; exact ⟨by simp, by simp [alertText], by simp⟩
  split at h
  · cases h; exact ⟨by simp, by simp [alertText], by simp⟩
  split at h
  · cases h; exact ⟨by simp, by simp [alertText], by simp⟩
  simp only [exec_bind_eq_ok] at h
  obtain ⟨y, _, h⟩ := h
  split at h
  · simp only [exec_bind_eq_ok] at h
    obtain ⟨z, _, h⟩ := h
    cases h
    have hd : ∀ u : String, u.toList.head? = some 'R' ∨ u.toList.head? = some 'C' →
        "Decryption failed: " ++ y.2 ≠ u := by
      intro u hu
      rcases hu with hu | hu <;>
        exact append_ne_of_head (a := 'D') (by decide) hu (by decide)
    refine ⟨by simp, fun _ => hd _ (Or.inl (by decide)), ?_⟩
    simp [hd "Received close notify alert." (Or.inl (by decide)),
      hd "Close notify alert has been received. Close the connection." (Or.inr (by decide))]
  · split at h
    · cases h
    · exact dispatchT_alert h

end Record

namespace Frame
open Record (alertText)

theorem destroyAll_evs (s : State) (l : List (BufId × Bytes)) : (s.destroyAll l).evs = s.evs := by
  induction l generalizing s with
  | nil => rfl
  | cons x l ih => exact (ih _).trans rfl

/-- The text of an allocating `Unprotect` that met an alert. -/
abbrev alertTextA : String := "Failed to unprotect bytes from peer: " ++ alertText

theorem unprotectIntoT_alert {L : Lib} {f : Record.Fault} {w : String}
    {s : State} {vs : List Iovec} {out : Iovec} {x : State × StatusCode × Nat × Iovec}
    {said : Said} (h : unprotectIntoT L f w s vs out = .ok (x, said)) :
    ∃ new, x.1.evs = s.evs ++ new ∧
      ∀ r, .opened r ∈ new → r.code = .alertOther → said.message = alertText := by
  unfold unprotectIntoT at h
  have none : ∀ {m : String}, ∃ new, s.evs = s.evs ++ new ∧
      ∀ r, Record.Event.opened r ∈ new → r.code = .alertOther → m = alertText :=
    ⟨[], by simp, by simp⟩
  split at h
  · cases h; exact none
  · simp only [exec_bind_eq_ok] at h
    obtain ⟨y, hy, h⟩ := h
    split at h
    · cases h; exact none
    · simp only [exec_bind_eq_ok] at h
      obtain ⟨z, hz, h⟩ := h
      split at h
      · cases h; exact none
      · simp only [exec_bind_eq_ok, State.crypterUnprotectT] at h
        obtain ⟨y, ⟨z, hz, hy⟩, h⟩ := h
        cases hy
        have hf := Record.unprotectT_alert hz
        simp only at h
        split at h
        · cases h
          refine ⟨_, rfl, ?_⟩
          intro r hr hc
          cases List.mem_singleton.1 hr
          rw [hf.1 hc]
        · next hok =>
          cases h
          refine ⟨_, rfl, ?_⟩
          intro r hr hc
          cases List.mem_singleton.1 hr
          rw [hc] at hok
          exact absurd (by simp) hok

theorem unprotectLoopT_alert {L : Lib} {A : Allocator} {f : Nat → Record.Fault}
    {w : Nat → String} {fuel i : Nat} {s : State} {vs : List Iovec}
    {on rem : Nat} {done : List (BufId × Bytes)} {log : List String} {x : State × Result}
    {said : Said} (h : unprotectLoopT L A f w fuel i s vs on rem done log = .ok (x, said)) :
    ∃ new, x.1.evs = s.evs ++ new ∧
      ∀ r, .opened r ∈ new → r.code = .alertOther → said.message = alertTextA := by
  induction fuel generalizing i s vs on rem done log with
  | zero => cases h
  | succ fuel ih =>
    unfold unprotectLoopT at h
    have none : ∀ {m : String}, ∃ new, s.evs = s.evs ++ new ∧
        ∀ r, Record.Event.opened r ∈ new → r.code = .alertOther → m = alertTextA :=
      ⟨[], by simp, by simp⟩
    split at h
    · simp only [exec_bind_eq_ok] at h
      obtain ⟨y, hy, h⟩ := h
      split at h
      · cases h; exact none
      · simp only [exec_bind_eq_ok] at h
        obtain ⟨z, hz, h⟩ := h
        split at h
        · cases h; exact none
        · simp only [exec_bind_eq_ok, State.crypterUnprotectT] at h
          obtain ⟨y, ⟨z, hz, hy⟩, h⟩ := h
          cases hy
          have hf := Record.unprotectT_alert hz
          simp only at h
          split at h
          · cases h
            refine ⟨[.opened z.1.2], by rw [destroyAll_evs]; rfl, ?_⟩
            intro r hr hc
            cases List.mem_singleton.1 hr
            simp only
            rw [hf.1 hc]
          · next hok =>
            simp only [exec_bind_eq_ok] at h
            obtain ⟨rem', _, h⟩ := h
            obtain ⟨new, he, hn⟩ := ih h
            refine ⟨.opened z.1.2 :: new, by rw [he]; simp [State.alloc], ?_⟩
            intro r hr hc
            rcases List.mem_cons.1 hr with hr | hr
            · cases hr
              rw [hc] at hok
              exact absurd (by simp) hok
            · exact hn r hr hc
    · cases h; exact none

theorem unprotectT_alert {L : Lib} {A : Allocator} {f : Nat → Record.Fault}
    {w : Nat → String} {s : State} {vs : List Iovec} {x : State × Result}
    {said : Said} (h : unprotectT L A f w s vs = .ok (x, said)) :
    ∃ new, x.1.evs = s.evs ++ new ∧
      ∀ r, .opened r ∈ new → r.code = .alertOther → said.message = alertTextA := by
  unfold unprotectT at h
  simp only at h
  split at h
  · cases h
    exact ⟨[], by simp, by simp⟩
  · exact unprotectLoopT_alert h

end Frame
end S2A
