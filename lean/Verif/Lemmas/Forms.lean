import Verif.Spec.Forms
import Verif.Lemmas.FrameProtect
/-
The reference machine does the same for the two forms of a call.
-/
namespace S2A.Spec
open Frame (fragments_short fragments_long recordCount_short recordCount_long dirProtect_length)

/-- The room that some fragments need. -/
def roomFor : List Bytes → Nat
  | [] => 0
  | x :: xs => x.length + 22 + roomFor xs

theorem roomFor_fragments (b : Bytes) :
    roomFor (fragments b) = b.length + 22 * recordCount b.length := by
  have : ∀ k b, b.length ≤ k → roomFor (fragments b) = b.length + 22 * recordCount b.length := by
    intro k
    induction k with
    | zero =>
      intro b hb
      rw [fragments_short (by omega), recordCount_short (by omega)]
      simp only [roomFor]
    | succ k ih =>
      intro b hb
      by_cases h : b.length ≤ 16384
      · rw [fragments_short h, recordCount_short h]
        simp only [roomFor]
      · have h' : 16384 < b.length := by omega
        rw [fragments_long h', recordCount_long h']
        have := ih (b.drop 16384) (by simp; omega)
        simp only [roomFor, this, List.length_take, List.length_drop]
        omega
  exact this b.length b (Nat.le_refl _)

theorem send_length {L : Lib} {m m' : Machine} {t x room w}
    (h : m.send L t x room = (m', .ok, w)) : w.length = x.length + 22 := by
  unfold Machine.send at h
  split at h
  · cases h
  split at h
  · cases h
  split at h
  · cases h
  cases h
  simp [dirProtect_length, innerPlaintext]

theorem send_roomy {L : Lib} {m : Machine} {t x room room'} (h : x.length + 22 ≤ room)
    (h' : x.length + 22 ≤ room') : m.send L t x room = m.send L t x room' := by
  have e : (16384 < x.length ∨ room < x.length + 22) =
      (16384 < x.length ∨ room' < x.length + 22) := by
    apply propext
    omega
  unfold Machine.send
  simp only [e]

theorem sendAll_roomy {L : Lib} {xs : List Bytes} : ∀ {m : Machine} {room room'},
    roomFor xs ≤ room → roomFor xs ≤ room' → m.sendAll L xs room = m.sendAll L xs room' := by
  induction xs with
  | nil => intros; rfl
  | cons x xs ih =>
    intro m room room' h h'
    simp only [roomFor] at h h'
    unfold Machine.sendAll
    rw [send_roomy (room := room) (room' := room') (by omega) (by omega)]
    generalize he : m.send L .applicationData x room' = r
    obtain ⟨m1, code, w⟩ := r
    cases code <;> try rfl
    have := send_length he
    simp only
    rw [ih (room := room - w.length) (room' := room' - w.length) (by omega) (by omega)]

theorem receive_roomy {L : Lib} {m : Machine} {header payload room room'}
    (h : payload.length ≤ room + 16) (h' : payload.length ≤ room' + 16) :
    m.receive L header payload room = m.receive L header payload room' := by
  unfold Machine.receive
  rw [if_neg (c := room + 16 < payload.length) (by omega),
    if_neg (c := room' + 16 < payload.length) (by omega)]

theorem unprotectAll_short {L : Lib} {m : Machine} {b : Bytes} (h : b.length < 22) (k : Nat) :
    m.unprotectAll L k b = some (m, .ok, []) := by
  cases k with
  | zero => rfl
  | succ k => unfold Machine.unprotectAll; rw [if_pos h]

theorem OtherForm.step {x y : FrameCall} (h : OtherForm x y) (L : Lib) (m : Machine) :
    m.frameStep L y = m.frameStep L x := by
  cases h with
  | @protect b room h =>
    simp only [Machine.frameStep, Machine.protect]
    rw [sendAll_roomy (room := room) (room' := b.length + 22 * recordCount b.length)]
    · rw [roomFor_fragments]; exact h
    · rw [roomFor_fragments]; exact Nat.le_refl _
  | @unprotect b room h =>
    simp only [Machine.frameStep, Machine.unprotect, Machine.unprotectFirst]
    by_cases hl : b.length < 22
    · rw [if_pos hl, if_pos hl]
    rw [if_neg hl, if_neg hl]
    obtain ⟨k, hk⟩ : ∃ k, b.length = k + 1 := ⟨b.length - 1, by omega⟩
    rw [hk]
    unfold Machine.unprotectAll
    rw [if_neg hl]
    generalize hf : firstRecord b = r
    cases r with
    | none => rfl
    | some r =>
      obtain ⟨header, payload, rest⟩ := r
      obtain ⟨h1, h2⟩ := h _ _ _ hf
      simp only
      rw [receive_roomy (room := room) (room' := payload.length) h2 (by omega)]
      generalize m.receive L header payload payload.length = q
      cases q with
      | none => rfl
      | some q =>
        obtain ⟨m1, code, x⟩ := q
        cases code <;> try rfl
        simp only [unprotectAll_short h1]

theorem Alike.step {x y : FrameCall} (h : Alike x y) (L : Lib) (m : Machine) :
    m.frameStep L x = m.frameStep L y := by
  rcases h with rfl | h | h | ⟨z, h, h'⟩
  · rfl
  · exact (h.step L m).symm
  · exact h.step L m
  · rw [h.step, h'.step]

theorem AllAlike.run {xs ys : List FrameCall} (h : AllAlike xs ys) (L : Lib) :
    ∀ m : Machine, m.frameRun L xs = m.frameRun L ys := by
  induction h with
  | nil => intro; rfl
  | cons h _ ih =>
    intro m
    unfold Machine.frameRun
    rw [h.step L m]
    simp only [ih]

end S2A.Spec
