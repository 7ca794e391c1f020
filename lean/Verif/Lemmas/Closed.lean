import Verif.Lemmas.Close
import Verif.Lemmas.FrameReach
/-
A connection that has reported close-notify, for any buffers.
-/
namespace S2A.Record
open HalfConn (exec_bind_eq_ok)

theorem dispatch_closed {L : Lib} {f : KeyFault} {c c' : Conn} {call pt w r}
    (h : dispatch L f c call pt w = .ok (c', r)) :
    r.code = .alertCloseNotify → c'.closeNotify = true := by
  intro hcode
  unfold dispatch at h
  simp only [exec_bind_eq_ok] at h
  obtain ⟨x, _, h⟩ := h
  cases x with
  | none => cases h; cases hcode
  | some nt =>
    obtain ⟨n, t⟩ := nt
    simp only at h
    split at h
    · split at h
      · cases h; cases hcode
      · split at h
        · cases h
        · split at h
          · cases h; rfl
          · cases h; cases hcode
    · split at h
      · simp only [exec_bind_eq_ok] at h
        obtain ⟨⟨h', res⟩, h1, ⟨c1, st, rk⟩, h2, h⟩ := h
        split at h <;> (cases h; cases hcode)
      · split at h
        · split at h
          · cases h; cases hcode
          · split at h
            · simp only [exec_bind_eq_ok] at h
              obtain ⟨c1, h1, h⟩ := h
              cases h; cases hcode
            · cases h; cases hcode
        · cases h; cases hcode

theorem unprotect_closed {L : Lib} {f : Fault} {c c' : Conn} {header payload out r}
    (h : unprotect L f c header payload out = .ok (c', r))
    (hcode : r.code = .alertCloseNotify) : c'.closeNotify = true := by
  unfold unprotect at h
  split at h
  · next hc => cases h; exact hc
  next hc =>
  simp only at h
  split at h
  · cases h; cases hcode
  split at h
  · cases h; cases hcode
  split at h
  · cases h; cases hcode
  simp only [exec_bind_eq_ok] at h
  obtain ⟨⟨inC, call, r1⟩, _, h⟩ := h
  simp only at h
  split at h
  · simp only [exec_bind_eq_ok] at h
    obtain ⟨z, _, h⟩ := h
    cases h
    cases hcode
  · split at h
    · cases h
    · exact dispatch_closed h hcode

/-- Once closed, always closed. -/
theorem step_stays_closed {L : Lib} {c op c' ev} (hc : c.closeNotify = true)
    (h : step L c op = .ok (c', ev)) : c'.closeNotify = true := by
  cases op with
  | protect f rt pt rec =>
    simp only [step, exec_bind_eq_ok] at h
    obtain ⟨⟨c1, r⟩, h1, h2⟩ := h
    cases h2
    have ho := (protect_frame h1).1
    generalize c1.outC = o at ho
    rw [ho]
    exact hc
  | updateOutboundKey f =>
    simp only [step, updateOutboundKey, exec_bind_eq_ok] at h
    obtain ⟨⟨c1, r⟩, ⟨⟨o, s⟩, _, h1⟩, h2⟩ := h
    cases h1
    cases h2
    exact hc
  | unprotect f hdr pl out =>
    simp only [step, exec_bind_eq_ok] at h
    obtain ⟨⟨c1, r⟩, h1, h2⟩ := h
    cases h2
    unfold unprotect at h1
    rw [if_pos hc] at h1
    cases h1
    exact hc

theorem run_closed {L : Lib} {ops c c' evs} (h : run L c ops = .ok (c', evs)) :
    (c.closeNotify = true ∨ ∃ r, .opened r ∈ evs ∧ r.code = .alertCloseNotify) →
      c'.closeNotify = true := by
  induction ops generalizing c evs with
  | nil =>
    cases h
    rintro (hc | ⟨r, hr, _⟩)
    · exact hc
    · cases hr
  | cons op ops ih =>
    simp only [run, exec_bind_eq_ok] at h
    obtain ⟨⟨c1, e⟩, h1, ⟨c2, es⟩, h2, h3⟩ := h
    cases h3
    have hi := ih h2
    rintro (hc | ⟨r, hr, hcode⟩)
    · exact hi (Or.inl (step_stays_closed hc h1))
    · rcases List.mem_cons.1 hr with rfl | hr
      · refine hi (Or.inl ?_)
        cases op with
        | protect f rt pt rec =>
          simp only [step, exec_bind_eq_ok] at h1
          obtain ⟨x, _, h1⟩ := h1
          cases h1
        | updateOutboundKey f =>
          simp only [step, exec_bind_eq_ok] at h1
          obtain ⟨x, _, h1⟩ := h1
          cases h1
        | unprotect f hdr pl out =>
          simp only [step, exec_bind_eq_ok] at h1
          obtain ⟨⟨c1, r⟩, h1, h2⟩ := h1
          cases h2
          exact unprotect_closed h1 hcode
      · exact hi (Or.inr ⟨r, hr, hcode⟩)

theorem Reach.closed {L : Lib} {a c evs r} (h : Reach L a c evs) (hm : .opened r ∈ evs)
    (hc : r.code = .alertCloseNotify) : c.closeNotify = true := by
  obtain ⟨c0, ops, _, h2⟩ := h
  exact run_closed h2 (Or.inr ⟨r, hm, hc⟩)

/-- `Protect` never updates a key. -/
theorem run_sealed {L : Lib} {ops c c' evs} (h : run L c ops = .ok (c', evs)) :
    ∀ r, .sealed r ∈ evs → r.rekey = none := by
  induction ops generalizing c evs with
  | nil => cases h; intro r hr; cases hr
  | cons op ops ih =>
    simp only [run, exec_bind_eq_ok] at h
    obtain ⟨⟨c1, e⟩, h1, ⟨c2, es⟩, h2, h3⟩ := h
    cases h3
    intro r hr
    rcases List.mem_cons.1 hr with rfl | hr
    · cases op with
      | protect f rt pt rec =>
        simp only [step, exec_bind_eq_ok] at h1
        obtain ⟨⟨c1, r⟩, h1, h2⟩ := h1
        cases h2
        exact (protect_frame h1).2.1
      | updateOutboundKey f =>
        simp only [step, exec_bind_eq_ok] at h1
        obtain ⟨x, _, h1⟩ := h1
        cases h1
      | unprotect f hdr pl out =>
        simp only [step, exec_bind_eq_ok] at h1
        obtain ⟨x, _, h1⟩ := h1
        cases h1
    · exact ih h2 r hr

theorem outTrace_quiet {evs : List Event} (hs : ∀ r, .sealed r ∈ evs → r.rekey = none)
    (h : ∀ st, .outboundUpdated st ∉ evs) : .rekey ∉ outTrace evs := by
  induction evs with
  | nil => intro h; cases h
  | cons e es ih =>
    have ih' := ih (fun r hm => hs r (List.mem_cons_of_mem _ hm))
      (fun st hm => h st (List.mem_cons_of_mem _ hm))
    cases e with
    | sealed r =>
      have hr := hs r (List.mem_cons_self ..)
      simp only [outTrace, Result.uses, hr, List.append_nil, List.mem_append]
      rintro (hm | hm)
      · split at hm
        · cases List.mem_singleton.1 hm
        · cases hm
      · exact ih' hm
    | opened r => exact ih'
    | outboundUpdated st => exact absurd (List.mem_cons_self ..) (h st)

theorem follows_one_key {L : Lib} {su : Spec.Suite} {sec : Bytes} {q : Nat}
    {us : List Spec.KeyUse} (h : .rekey ∉ us) (hf : Spec.Follows L su sec 0 q us) :
    ∀ key nonce, .aead key nonce ∈ us → key = Spec.trafficKey L su.hash sec su.keyLen := by
  induction us generalizing q with
  | nil => intro _ _ h; cases h
  | cons u us ih =>
    intro key nonce hm
    cases u with
    | rekey => exact absurd (List.mem_cons_self ..) h
    | aead k n =>
      rcases List.mem_cons.1 hm with he | hm
      · cases he; exact hf.1
      · exact ih (fun x => h (List.mem_cons_of_mem _ x)) hf.2.2.2 key nonce hm

theorem follows_length {L : Lib} {su : Spec.Suite} {sec : Bytes} {q : Nat}
    {us : List Spec.KeyUse} (h : .rekey ∉ us) (hq : q ≤ 2 ^ 64)
    (hf : Spec.Follows L su sec 0 q us) : q + us.length ≤ 2 ^ 64 := by
  induction us generalizing q with
  | nil => exact hq
  | cons u us ih =>
    cases u with
    | rekey => exact absurd (List.mem_cons_self ..) h
    | aead k n =>
      have := ih (fun x => h (List.mem_cons_of_mem _ x)) hf.2.2.1 hf.2.2.2
      simp only [List.length_cons]
      omega

end S2A.Record

namespace S2A.Frame
open HalfConn (exec_bind_eq_ok)

theorem readHeader_ne_ok {k i : Nat} {vs : List Iovec} {on e}
    (h : readHeader k i vs on = .ok (.error e)) : e = .failedPrecondition := by
  induction k generalizing i vs on with
  | zero => cases h
  | succ k ih =>
    cases vs with
    | nil => cases h; rfl
    | cons v vs =>
      cases v with
      | null n => cases h
      | buf b =>
        simp only [readHeader, exec_bind_eq_ok] at h
        obtain ⟨x, _, h⟩ := h
        split at h
        · cases h; rfl
        · simp only [exec_bind_eq_ok] at h
          obtain ⟨y, h1, h⟩ := h
          cases y with
          | error e' => cases h; exact ih h1
          | ok z => cases h

theorem isolate_ne_ok {vs : List Iovec} {on rem e}
    (h : isolate vs on rem = .ok (.error e)) : e = .failedPrecondition := by
  induction vs generalizing on rem with
  | nil =>
    cases rem with
    | zero => cases h
    | succ rem => cases h; rfl
  | cons v vs ih =>
    cases rem with
    | zero => cases h
    | succ rem =>
      cases v with
      | null n => cases h
      | buf b =>
        simp only [isolate, exec_bind_eq_ok] at h
        obtain ⟨x, _, p, _, h⟩ := h
        split at h
        · simp only [exec_bind_eq_ok] at h
          obtain ⟨y, h1, h⟩ := h
          cases y with
          | error e' => cases h; exact ih h1
          | ok z => cases h
        · cases h

theorem crypterUnprotect_closed {L : Lib} {f s hd pl out s' r} (hc : s.conn.closeNotify = true)
    (h : State.crypterUnprotect L f s hd pl out = .ok (s', r)) :
    r = ⟨.alertCloseNotify, 0, out, none, none, none⟩ := by
  simp only [State.crypterUnprotect, Record.unprotect, hc, if_true, exec_bind_eq_ok] at h
  obtain ⟨x, h1, h2⟩ := h
  cases h1
  cases h2
  rfl

/-- On a closed connection the allocating `Unprotect` returns no data and not OK. -/
theorem unprotect_after_close {L : Lib} {A f s vs s' res} (hc : s.conn.closeNotify = true)
    (h : unprotect L A f s vs = .ok (s', res)) :
    res.bytes = [] ∧ (res.status = .failedPrecondition ∨ res.status = .internal) := by
  unfold unprotect at h
  simp only at h
  split at h
  · cases h; exact ⟨rfl, Or.inl rfl⟩
  next hn =>
  unfold unprotectLoop at h
  split at h
  case isFalse hx => exact absurd hx (by omega)
  simp only [exec_bind_eq_ok] at h
  obtain ⟨x, h1, h⟩ := h
  split at h
  · cases h; exact ⟨rfl, Or.inl (readHeader_ne_ok h1)⟩
  simp only [exec_bind_eq_ok] at h
  obtain ⟨x, h2, h⟩ := h
  split at h
  · cases h; exact ⟨rfl, Or.inl (isolate_ne_ok h2)⟩
  simp only [exec_bind_eq_ok, State.alloc] at h
  obtain ⟨⟨s1, r⟩, h3, h⟩ := h
  have := crypterUnprotect_closed (by exact hc) h3
  subst this
  simp only at h
  cases h
  exact ⟨rfl, Or.inr rfl⟩

/-- The same for the non-allocating one. -/
theorem unprotectInto_after_close {L : Lib} {f s vs out s' st n o} (hc : s.conn.closeNotify = true)
    (h : unprotectInto L f s vs out = .ok (s', st, n, o)) :
    o = out ∧ (st = .failedPrecondition ∨ st = .internal) := by
  unfold unprotectInto at h
  split at h
  · cases h; exact ⟨rfl, Or.inl rfl⟩
  simp only [exec_bind_eq_ok] at h
  obtain ⟨x, h1, h⟩ := h
  split at h
  · cases h; exact ⟨rfl, Or.inl (readHeader_ne_ok h1)⟩
  simp only [exec_bind_eq_ok] at h
  obtain ⟨x, h2, h⟩ := h
  split at h
  · cases h; exact ⟨rfl, Or.inl (isolate_ne_ok h2)⟩
  simp only [exec_bind_eq_ok] at h
  obtain ⟨⟨s1, r⟩, h3, h⟩ := h
  have := crypterUnprotect_closed hc h3
  subst this
  simp only at h
  cases h
  exact ⟨rfl, Or.inr rfl⟩

end S2A.Frame
