import Verif.Spec.Amount
import Verif.Lemmas.FrameEmpty
import Verif.Lemmas.Heap
namespace S2A.Frame
open HalfConn (exec_bind_eq_ok)
open Spec (bytesAllocated allocations Bufs)

theorem bytesAllocated_append (a b : List MemEvent) :
    bytesAllocated (a ++ b) = bytesAllocated a + bytesAllocated b := by
  induction a with
  | nil => simp [bytesAllocated]
  | cons e a ih => cases e <;> simp [bytesAllocated, ih]; omega

theorem allocations_append (a b : List MemEvent) :
    allocations (a ++ b) = allocations a + allocations b := by
  induction a with
  | nil => simp [allocations]
  | cons e a ih => cases e <;> simp [allocations, ih]; omega

theorem destroyAll_amount (s : State) (done : List (BufId × Bytes)) :
    ∃ new, (s.destroyAll done).mem = s.mem ++ new ∧ bytesAllocated new = 0 ∧ allocations new = 0 := by
  induction done generalizing s with
  | nil => exact ⟨[], by simp [State.destroyAll], rfl, rfl⟩
  | cons x done ih =>
    obtain ⟨id, b⟩ := x
    obtain ⟨new, h1, h2, h3⟩ := ih (s.destroy id b.length)
    refine ⟨.destroy id b.length :: new, ?_, h2, h3⟩
    show ((s.destroy id b.length).destroyAll done).mem = _
    rw [h1]
    simp [State.destroy]

theorem unprotectLoop_amount (L : Lib) (A : Allocator) (f : Nat → Record.Fault)
    (fuel i : Nat) (s s' : State) (vs : List Iovec) (on rem : Nat) (done : List (BufId × Bytes))
    (res : Result) (hc : ECursor vs on) (hrem : rem = (ahead vs on).length)
    (h : unprotectLoop L A f fuel i s vs on rem done = .ok (s', res)) :
    ∃ new, s'.mem = s.mem ++ new ∧ bytesAllocated new + 5 * allocations new ≤ rem ∧
      22 * allocations new ≤ rem ∧ (rem < 22 → allocations new = 0) := by
  induction fuel generalizing i s vs on rem done with
  | zero => cases h
  | succ fuel ih =>
    have h22 : s.conn.recordOverhead = 22 := Record.recordOverhead_eq _
    unfold unprotectLoop at h
    by_cases hge : rem ≥ s.conn.recordOverhead
    case neg =>
      rw [if_neg hge] at h
      cases h
      exact ⟨[], by simp, by simp [bytesAllocated, allocations], by simp [allocations], fun _ => rfl⟩
    rw [if_pos hge] at h
    have hnone : ∀ st, .ok (s, (⟨st, []⟩ : Result)) = (.ok (s', res) : Exec (State × Result)) →
        ∃ new, s'.mem = s.mem ++ new ∧ bytesAllocated new + 5 * allocations new ≤ rem ∧
          22 * allocations new ≤ rem ∧ (rem < 22 → allocations new = 0) := by
      intro st he
      cases he
      exact ⟨[], by simp, by simp [bytesAllocated, allocations], by simp [allocations], fun _ => rfl⟩
    rcases walk_any vs on hc with ⟨hw, hb⟩ | ⟨hno, hw | ⟨hd, v', o', h1, h2⟩⟩ |
      ⟨hd, payload, rest, vs1, on1, ps, vs', on2, hfr, k1, k2, k3, k4, k5, k6, k7⟩
    · simp only [hw, exec_bind_error] at h
      cases h
    · simp only [hw, exec_bind_ok, exec_pure] at h
      exact hnone _ h
    · simp only [h1, h2, exec_bind_ok, exec_pure] at h
      exact hnone _ h
    obtain ⟨hsplit, hwhole⟩ := firstRecord_some hfr
    have hspl : rem = 5 + payload.length + rest.length := by
      rw [hrem, hsplit]
      have : hd.length = 5 := by rw [hwhole.header]; rfl
      simp [this]
      omega
    rw [k3] at k2
    simp only [k1, exec_bind_ok, k3, k2, State.alloc, State.crypterUnprotect] at h
    obtain ⟨⟨s1, r1⟩, hu, h⟩ := exec_bind_eq_ok.1 h
    obtain ⟨⟨c, r⟩, hu1, hu2⟩ := exec_bind_eq_ok.1 hu
    cases hu2
    simp only at h
    by_cases hcode : r.code = .ok
    case neg =>
      rw [if_pos hcode] at h
      cases h
      obtain ⟨new, g1, g2, g3⟩ := destroyAll_amount (State.destroy { s with next := s.next + 1, mem := s.mem ++ [.alloc (.heap s.next) payload.length], conn := c, evs := s.evs ++ [.opened r] } (.heap s.next) (A s.next payload.length).len) done
      refine ⟨.alloc (.heap s.next) payload.length :: .destroy (.heap s.next) (A s.next payload.length).len :: new, ?_, ?_, ?_, ?_⟩
      · rw [g1]
        simp [State.destroy]
      · simp only [bytesAllocated, allocations, g2, g3]; omega
      · simp only [allocations, g3]; omega
      · omega
    rw [if_neg (not_not_intro hcode)] at h
    simp only [subSize_ok (show kHeaderLength + payload.length ≤ rem by simp [kHeaderLength]; omega), exec_bind_ok] at h
    obtain ⟨new, g1, g2, g3, g4⟩ := ih _ _ _ _ _ _ k6 (by rw [k7, hspl]; simp [kHeaderLength]) h
    have hmin := unprotect_ok_min hu1 hcode
    have hlen : hd.length = 5 := by rw [hwhole.header]; rfl
    rw [hlen, k5.totalLen_eq, k4] at hmin
    simp only [kHeaderLength] at g2 g3 g4
    refine ⟨.alloc (.heap s.next) payload.length :: new, ?_, ?_, ?_, ?_⟩
    · rw [g1]; simp
    · simp only [bytesAllocated, allocations]; omega
    · simp only [allocations]; omega
    · omega

theorem unprotect_amount (L : Lib) (A : Allocator) (f : Nat → Record.Fault) (s s' : State)
    (vs : List Iovec) (res : Result) (hv : Bufs vs) (h : unprotect L A f s vs = .ok (s', res)) :
    ∃ new, s'.mem = s.mem ++ new ∧ bytesAllocated new + 5 * allocations new ≤ (flat vs).length ∧
      22 * allocations new ≤ (flat vs).length ∧
      ((flat vs).length < 22 → allocations new = 0) := by
  have hfl := hv.wf.totalLen_eq
  unfold unprotect at h
  simp only at h
  split at h
  · cases h
    exact ⟨[], by simp, by simp [bytesAllocated, allocations], by simp [allocations], fun _ => rfl⟩
  · rw [hfl] at h
    exact unprotectLoop_amount L A f _ _ _ _ _ _ _ _ _ (ecursor_start hv) (by simp [ahead]) h

end S2A.Frame
