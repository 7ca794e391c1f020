import Verif.Lemmas.FrameAdversary
import Verif.Spec.Loss
namespace S2A.Frame
open HalfConn (exec_bind_eq_ok)
open Spec (AllocOk sentData deliveredData receivedPieces OneRecord)

theorem deliveredData_none {evs : List Record.Event} (h : ∀ r, .opened r ∉ evs) :
    deliveredData evs = [] := by
  induction evs with
  | nil => rfl
  | cons ev evs ih =>
    have ih := ih fun r hr => h r (List.mem_cons_of_mem _ hr)
    cases ev with
    | opened r => exact absurd List.mem_cons_self (h r)
    | _ => exact ih

theorem protect_pieces {L : Lib} {f id s vs out s' st o} (hw : AllWF vs)
    (h : protectInto L f s id vs out = .ok (s', st, o)) :
    ∃ new, s'.evs = s.evs ++ new ∧ deliveredData new = [] := by
  obtain ⟨ops, evs, q1, _, q3⟩ := protectLoop_sent (curLe_start vs) (Nat.add_zero _) hw h
  exact ⟨evs, q1.evs, deliveredData_none q3⟩

theorem unprotect_pieces {L : Lib} {A : Allocator} (hA : AllocOk A) {f s vs s' res}
    (h : unprotect L A f s vs = .ok (s', res)) :
    ∃ new, s'.evs = s.evs ++ new ∧
      (res.status = .ok → res.bytes.map (·.2) = deliveredData new) := by
  unfold unprotect at h
  simp only at h
  split at h
  · cases h; exact ⟨[], by simp, fun hk => by cases hk⟩
  · obtain ⟨ops, evs, q1, q2, q3⟩ := unprotectLoop_received hA h
    exact ⟨evs, q1.evs, fun hk => by rw [(q3 hk).1]; simp⟩

/-- A failing call that holds no complete record after the first has delivered nothing. -/
theorem unprotect_one {L : Lib} {A : Allocator} (hA : AllocOk A) {f s vs s' res}
    (hv : Spec.NonEmptyBufs vs)
    (hone : ∀ hd payload rest, Spec.firstRecord (flat vs) = some (hd, payload, rest) →
      rest.length < 22)
    (h : unprotect L A f s vs = .ok (s', res)) (hne : res.status ≠ .ok) :
    ∃ new, s'.evs = s.evs ++ new ∧ deliveredData new = [] := by
  unfold unprotect at h
  simp only at h
  split at h
  · cases h; exact ⟨[], by simp, rfl⟩
  next h22 =>
  unfold unprotectLoop at h
  rw [if_pos (by omega)] at h
  have hhl : kHeaderLength = 5 := rfl
  rcases walk_spec vs 0 (cursor_start hv) with
    ⟨_, h1 | ⟨hd, vs', on', h1, h2⟩⟩ | ⟨hd, payload, rest, vs1, on1, ps, vs', on', e1, e2, e3, e4, e5, _, _, e8⟩
  · rw [hhl, h1] at h
    cases h
    exact ⟨[], by simp, rfl⟩
  · rw [hhl, h1] at h
    simp only [exec_bind_ok] at h
    rw [h2] at h
    cases h
    exact ⟨[], by simp, rfl⟩
  · rw [hhl, e2] at h
    simp only [exec_bind_ok] at h
    rw [e3] at h
    simp only [exec_bind_ok, exec_bind_eq_ok, State.alloc, State.crypterUnprotect] at h
    obtain ⟨⟨s1, r⟩, ⟨⟨c, r'⟩, h1, h3⟩, h2⟩ := h
    cases h3
    simp only at h2
    split at h2
    · next hcode =>
      cases h2
      refine ⟨[.opened r'], by rw [destroyAll_eq]; rfl, ?_⟩
      simp only [deliveredData, if_neg hcode]
    · simp only [exec_bind_eq_ok] at h2
      obtain ⟨rem', hrem, h2⟩ := h2
      have hr : rem' < 22 := by
        have hr := hone hd payload rest (by simpa [ahead] using e1)
        obtain ⟨hb, hw⟩ := firstRecord_some (by simpa [ahead] using e1)
        have hl : hd.length = 5 := by rw [hw.header]; rfl
        have ht : totalLen vs = 5 + payload.length + rest.length := by
          rw [hv.wf.totalLen_eq, hb]; simp; omega
        unfold subSize at hrem
        split at hrem
        · cases hrem; omega
        · cases hrem
      exfalso
      generalize totalLen vs = fuel at h2
      cases fuel with
      | zero => cases h2
      | succ fuel =>
        unfold unprotectLoop at h2
        rw [if_neg (by simp only [Record.recordOverhead_eq]; omega)] at h2
        cases h2
        exact hne rfl

theorem unprotectInto_pieces {L : Lib} {f s vs out s' st n o}
    (h : unprotectInto L f s vs out = .ok (s', st, n, o)) :
    ∃ new, s'.evs = s.evs ++ new ∧
      (if st = .ok then [o.bytes.take n] else []) = deliveredData new := by
  unfold unprotectInto at h
  split at h
  · cases h; exact ⟨[], by simp, rfl⟩
  simp only [exec_bind_eq_ok] at h
  obtain ⟨x, hx, h⟩ := h
  split at h
  · cases h; exact ⟨[], by simp, by rw [if_neg (readHeader_error hx)]; rfl⟩
  simp only [exec_bind_eq_ok] at h
  obtain ⟨x, hi, h⟩ := h
  split at h
  · cases h; exact ⟨[], by simp, by rw [if_neg (isolate_error hi)]; rfl⟩
  simp only [exec_bind_eq_ok, State.crypterUnprotect] at h
  obtain ⟨⟨s1, r⟩, ⟨⟨c, r'⟩, h1, h3⟩, h2⟩ := h
  cases h3
  simp only at h2
  split at h2
  · next hne =>
    cases h2
    refine ⟨[.opened r'], rfl, ?_⟩
    rw [if_neg (fun hk => hne (convertCode_ok.1 hk))]
    simp only [deliveredData, if_neg hne]
  · next hok =>
    have hok : r'.code = .ok := Classical.not_not.1 hok
    cases h2
    exact ⟨[.opened r'], rfl, by simp [deliveredData, hok]⟩

theorem step_pieces {L : Lib} {A : Allocator} (hA : AllocOk A) {s op s' ev}
    (hv : Spec.ValidFrameArgs op) (h : step L A s op = .ok (s', ev)) :
    ∃ new, s'.evs = s.evs ++ new ∧ (receivedPieces [op] [ev]).Sublist (deliveredData new) ∧
      (OneRecord op → receivedPieces [op] [ev] = deliveredData new) := by
  cases op with
  | protect f vs =>
    simp only [step, protect, State.alloc, exec_bind_eq_ok] at h
    obtain ⟨⟨s1, r⟩, ⟨⟨s2, st, o⟩, h1, h2⟩, h3⟩ := h
    cases h3
    obtain ⟨new, q1, q2⟩ := protect_pieces hv h1
    refine ⟨new, ?_, by simp [receivedPieces], fun _ => by rw [q2]; simp [receivedPieces]⟩
    simp only at h2
    split at h2 <;> (cases h2; exact q1)
  | protectInto f vs out =>
    simp only [step, exec_bind_eq_ok] at h
    obtain ⟨⟨s2, st, o⟩, h1, h2⟩ := h
    cases h2
    obtain ⟨new, q1, q2⟩ := protect_pieces hv h1
    exact ⟨new, q1, by simp [receivedPieces], fun _ => by rw [q2]; simp [receivedPieces]⟩
  | unprotect f vs =>
    simp only [step, exec_bind_eq_ok] at h
    obtain ⟨⟨s1, r⟩, h1, h2⟩ := h
    cases h2
    by_cases hk : r.status = .ok
    · obtain ⟨new, q1, q2⟩ := unprotect_pieces hA h1
      refine ⟨new, q1, ?_, fun _ => ?_⟩ <;> simp [receivedPieces, hk, ← q2 hk]
    · obtain ⟨new, q1, _⟩ := unprotect_pieces hA h1
      refine ⟨new, q1, by simp [receivedPieces, hk], fun ho => ?_⟩
      obtain ⟨new', r1, r2⟩ := unprotect_one hA ho.1 ho.2 h1 hk
      rw [q1] at r1
      rw [List.append_cancel_left r1, r2]
      simp [receivedPieces, hk]
  | unprotectInto f vs out =>
    simp only [step, exec_bind_eq_ok] at h
    obtain ⟨⟨s1, st, n, o⟩, h1, h2⟩ := h
    cases h2
    obtain ⟨new, q1, q2⟩ := unprotectInto_pieces h1
    have : receivedPieces [.unprotectInto f vs out] [.status st n o] = deliveredData new := by
      rw [← q2]; simp [receivedPieces]
    exact ⟨new, q1, this ▸ List.Sublist.refl _, fun _ => this⟩

theorem receivedPieces_cons (op ops ev evs) : receivedPieces (op :: ops) (ev :: evs) =
    receivedPieces [op] [ev] ++ receivedPieces ops evs := by
  cases op <;> cases ev <;> simp [receivedPieces]

theorem run_pieces {L : Lib} {A : Allocator} (hA : AllocOk A) {s ops s' evs}
    (hv : ∀ op ∈ ops, Spec.ValidFrameArgs op) (h : run L A s ops = .ok (s', evs)) :
    ∃ new, s'.evs = s.evs ++ new ∧ (receivedPieces ops evs).Sublist (deliveredData new) ∧
      ((∀ op ∈ ops, OneRecord op) → receivedPieces ops evs = deliveredData new) := by
  induction ops generalizing s evs with
  | nil => cases h; exact ⟨[], by simp, by simp [receivedPieces], fun _ => rfl⟩
  | cons op ops ih =>
    simp only [run, exec_bind_eq_ok] at h
    obtain ⟨⟨s1, e⟩, h1, ⟨s2, es⟩, h2, h3⟩ := h
    cases h3
    obtain ⟨n1, a1, a2, a3⟩ := step_pieces hA (hv _ List.mem_cons_self) h1
    obtain ⟨n2, b1, b2, b3⟩ := ih (fun o ho => hv o (List.mem_cons_of_mem _ ho)) h2
    refine ⟨n1 ++ n2, by rw [b1, a1, List.append_assoc], ?_, fun ho => ?_⟩
    · rw [receivedPieces_cons, deliveredData_append]
      exact a2.append b2
    · rw [receivedPieces_cons, deliveredData_append, a3 (ho _ List.mem_cons_self),
        b3 fun o h => ho o (List.mem_cons_of_mem _ h)]

end S2A.Frame
