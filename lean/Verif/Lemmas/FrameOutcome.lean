import Verif.Lemmas.FrameLoss
/-
Lemmas for C64 and C70: how an `Unprotect` call ends.
-/
namespace S2A.Frame
open HalfConn (exec_bind_eq_ok)
open Spec (deliveredData)

theorem isolate_precondition {vs : List Iovec} {on rem e}
    (h : isolate vs on rem = .ok (.error e)) : e = .failedPrecondition := by
  induction vs generalizing on rem with
  | nil =>
    cases rem with
    | zero => cases h
    | succ n => cases h; rfl
  | cons v vs ih =>
    cases rem with
    | zero => cases h
    | succ n =>
      cases v with
      | null k => cases h
      | buf d =>
        simp only [isolate, exec_bind_eq_ok] at h
        obtain ⟨left, _, piece, hp, h⟩ := h
        split at h
        · simp only [exec_bind_eq_ok] at h
          obtain ⟨x, hx, h⟩ := h
          split at h
          · cases h; exact ih hx
          · cases h
        · cases h

theorem readHeader_precondition {k i : Nat} {vs : List Iovec} {on e}
    (h : readHeader k i vs on = .ok (.error e)) : e = .failedPrecondition := by
  induction k generalizing i vs on with
  | zero => cases h
  | succ k ih =>
    cases vs with
    | nil => cases h; rfl
    | cons v vs =>
      cases v with
      | null n => cases h
      | buf d =>
        simp only [readHeader, exec_bind_eq_ok] at h
        obtain ⟨b, _, h⟩ := h
        split at h
        · cases h; rfl
        · simp only [exec_bind_eq_ok] at h
          obtain ⟨x, hx, h⟩ := h
          split at h
          · cases h; exact ih hx
          · cases h

/-- How a call that fed the records of `new` to the connection ends: `rs` are the results of the
records. -/
def Ends (rs : List Record.Result) (done : List Bytes) (res : Result) : Prop :=
  (res.status = .ok ∧ (∀ r ∈ rs, r.code = .ok) ∧
    res.bytes.map (·.2) = done ++ rs.map (fun r => r.out.bytes.take r.written)) ∨
  (res = ⟨.failedPrecondition, []⟩ ∧ ∀ r ∈ rs, r.code = .ok) ∨
  ∃ before last, rs = before ++ [last] ∧ (∀ r ∈ before, r.code = .ok) ∧ last.code ≠ .ok ∧
    res = ⟨convertCode last.code, []⟩

theorem unprotectLoop_ends {L : Lib} {A : Allocator} {f fuel i s vs on rem done s' res}
    (h : unprotectLoop L A f fuel i s vs on rem done = .ok (s', res)) :
    ∃ rs : List Record.Result, s'.evs = s.evs ++ rs.map .opened ∧ Ends rs (done.map (·.2)) res := by
  induction fuel generalizing i s vs on rem done with
  | zero => cases h
  | succ fuel ih =>
    unfold unprotectLoop at h
    split at h
    case isFalse =>
      cases h
      exact ⟨[], by simp, Or.inl ⟨rfl, by simp, by simp⟩⟩
    simp only [exec_bind_eq_ok] at h
    obtain ⟨x, hx, h⟩ := h
    split at h
    · cases h
      exact ⟨[], by simp, Or.inr (Or.inl ⟨by rw [readHeader_precondition hx], by simp⟩)⟩
    simp only [exec_bind_eq_ok] at h
    obtain ⟨x, hi, h⟩ := h
    split at h
    · cases h
      exact ⟨[], by simp, Or.inr (Or.inl ⟨by rw [isolate_precondition hi], by simp⟩)⟩
    simp only [exec_bind_eq_ok, State.alloc, State.crypterUnprotect] at h
    obtain ⟨⟨s1, r⟩, ⟨⟨c, r'⟩, h1, h3⟩, h2⟩ := h
    cases h3
    simp only at h1 h2
    split at h2
    · next hne =>
      cases h2
      refine ⟨[r'], ?_, Or.inr (Or.inr ⟨[], r', rfl, by simp, hne, rfl⟩)⟩
      rw [destroyAll_eq]; rfl
    · next hok =>
      have hok : r'.code = .ok := Classical.not_not.1 hok
      simp only [exec_bind_eq_ok] at h2
      obtain ⟨rem', _, h2⟩ := h2
      obtain ⟨rs, q1, q2⟩ := ih h2
      have hall : ∀ {l : List Record.Result}, (∀ r ∈ l, r.code = .ok) →
          ∀ r ∈ r' :: l, r.code = .ok := by
        intro l hl r hr
        rcases List.mem_cons.1 hr with rfl | hr
        · exact hok
        · exact hl r hr
      refine ⟨r' :: rs, by rw [q1]; simp, ?_⟩
      rcases q2 with ⟨a1, a2, a3⟩ | ⟨a1, a2⟩ | ⟨b, l, rfl, a2, a3, a4⟩
      · exact Or.inl ⟨a1, hall a2, by rw [a3]; simp⟩
      · exact Or.inr (Or.inl ⟨a1, hall a2⟩)
      · exact Or.inr (Or.inr ⟨r' :: b, l, rfl, hall a2, a3, a4⟩)

theorem unprotect_ends {L : Lib} {A : Allocator} {f s vs s' res}
    (h : unprotect L A f s vs = .ok (s', res)) :
    ∃ rs : List Record.Result, s'.evs = s.evs ++ rs.map .opened ∧ Ends rs [] res := by
  unfold unprotect at h
  simp only at h
  split at h
  · cases h; exact ⟨[], by simp, Or.inr (Or.inl ⟨rfl, by simp⟩)⟩
  · exact unprotectLoop_ends h

theorem unprotectInto_ends {L : Lib} {f s vs out s' st n o}
    (h : unprotectInto L f s vs out = .ok (s', st, n, o)) :
    (s' = s ∧ st = .failedPrecondition ∧ o = out) ∨
    ∃ r, s'.evs = s.evs ++ [.opened r] ∧ o = r.out ∧ st = convertCode r.code ∧
      n = if r.code = .ok then r.written else 0 := by
  unfold unprotectInto at h
  split at h
  · cases h; exact Or.inl ⟨rfl, rfl, rfl⟩
  simp only [exec_bind_eq_ok] at h
  obtain ⟨x, hx, h⟩ := h
  split at h
  · cases h; exact Or.inl ⟨rfl, readHeader_precondition hx, rfl⟩
  simp only [exec_bind_eq_ok] at h
  obtain ⟨x, hi, h⟩ := h
  split at h
  · cases h; exact Or.inl ⟨rfl, isolate_precondition hi, rfl⟩
  simp only [exec_bind_eq_ok, State.crypterUnprotect] at h
  obtain ⟨⟨s1, r⟩, ⟨⟨c, r'⟩, h1, h3⟩, h2⟩ := h
  cases h3
  simp only at h2
  split at h2
  · next hne => cases h2; exact Or.inr ⟨r', rfl, rfl, rfl, by rw [if_neg hne]⟩
  · next hok =>
    have hok : r'.code = .ok := Classical.not_not.1 hok
    cases h2
    exact Or.inr ⟨r', rfl, rfl, by rw [hok]; rfl, by rw [if_pos hok]⟩

theorem deliveredData_opened (rs : List Record.Result) (h : ∀ r ∈ rs, r.code = .ok) :
    deliveredData (rs.map .opened) = rs.map (fun r => r.out.bytes.take r.written) := by
  induction rs with
  | nil => rfl
  | cons r rs ih =>
    have h1 := h r (by simp)
    have h2 := ih fun r hr => h r (by simp [hr])
    simp [deliveredData, h1, h2]

end S2A.Frame

namespace S2A.Record
open HalfConn (exec_bind_eq_ok)

/-- The codes `S2ACrypter::Unprotect` can return. -/
theorem dispatch_codes {L : Lib} {f : KeyFault} {c c' : Conn} {call pt w r}
    (h : dispatch L f c call pt w = .ok (c', r)) :
    r.code ∈ [.ok, .invalidRecord, .alertCloseNotify, .alertOther, .internalError] := by
  unfold dispatch at h
  simp only [exec_bind_eq_ok] at h
  obtain ⟨x, _, h⟩ := h
  split at h
  · cases h; simp
  split at h
  · split at h
    · cases h; simp
    · split at h
      · cases h
      · split at h <;> (cases h; simp)
  split at h
  · simp only [exec_bind_eq_ok] at h
    obtain ⟨⟨h', res⟩, _, ⟨c2, st, rk⟩, _, h⟩ := h
    simp only at h
    split at h <;> (cases h; simp)
  split at h
  · split at h
    · cases h; simp
    · split at h
      · simp only [exec_bind_eq_ok] at h
        obtain ⟨c2, _, h⟩ := h
        cases h; simp
      · cases h; simp
  · cases h; simp

theorem unprotect_codes {L : Lib} {f : Fault} {c c' : Conn} {header payload out r}
    (h : unprotect L f c header payload out = .ok (c', r)) :
    r.code ∈ [.ok, .invalidRecord, .alertCloseNotify, .alertOther, .internalError,
      .alertRecordOverflow, .failedPrecondition] := by
  unfold unprotect at h
  split at h
  · cases h; simp
  simp only at h
  split at h
  · cases h; simp
  split at h
  · cases h; simp
  split at h
  · cases h; simp
  simp only [exec_bind_eq_ok] at h
  obtain ⟨⟨inC, call, r1⟩, _, h⟩ := h
  simp only at h
  split at h
  · simp only [exec_bind_eq_ok] at h
    obtain ⟨z, _, h⟩ := h
    cases h; simp
  · split at h
    · cases h
    · have := dispatch_codes h
      simp only [List.mem_cons, List.not_mem_nil] at this ⊢
      rcases this with h | h | h | h | h | h <;> simp [h]

/-- Every record result of a history is that of an `Unprotect` call. -/
theorem run_codes {L : Lib} {c c' : Conn} {ops evs} (h : run L c ops = .ok (c', evs))
    {r : Result} (hm : .opened r ∈ evs) :
    r.code ∈ [.ok, .invalidRecord, .alertCloseNotify, .alertOther, .internalError,
      .alertRecordOverflow, .failedPrecondition] := by
  induction ops generalizing c evs with
  | nil => cases h; cases hm
  | cons op ops ih =>
    simp only [run, exec_bind_eq_ok] at h
    obtain ⟨⟨c1, e⟩, h1, ⟨c2, es⟩, h2, h3⟩ := h
    cases h3
    rcases List.mem_cons.1 hm with rfl | hm
    · cases op with
      | unprotect f hd pl out =>
        simp only [step, exec_bind_eq_ok] at h1
        obtain ⟨⟨c3, r3⟩, h1, h4⟩ := h1
        cases h4
        exact unprotect_codes h1
      | protect f t pl out =>
        simp only [step, exec_bind_eq_ok] at h1
        obtain ⟨⟨c3, r3⟩, h1, h4⟩ := h1
        cases h4
      | updateOutboundKey f =>
        simp only [step, exec_bind_eq_ok] at h1
        obtain ⟨⟨c3, r3⟩, h1, h4⟩ := h1
        cases h4
    · exact ih h2 hm

end S2A.Record
