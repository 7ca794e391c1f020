import Verif.Lemmas.ReferenceHist
import Verif.Lemmas.FrameSession
/-
Allocators that give more than they are asked for.
-/
namespace S2A.Frame
open Spec (Machine Roomy fragments recordCount statusOf)
open Record (Acts)

theorem send_room {L : Lib} {m : Machine} {x : Bytes} {room room' : Nat}
    (h : x.length + 22 ≤ room) (h' : x.length + 22 ≤ room') :
    m.send L .applicationData x room = m.send L .applicationData x room' := by
  unfold Machine.send
  by_cases h1 : 16384 < x.length
  · rw [if_pos (Or.inl h1), if_pos (Or.inl h1)]
  · rw [if_neg (by omega), if_neg (by omega)]

theorem send_length {L : Lib} {m : Machine} {x : Bytes} {room : Nat}
    (h : (m.send L .applicationData x room).2.1 = .ok) :
    (m.send L .applicationData x room).2.2.length = x.length + 22 := by
  unfold Machine.send at h ⊢
  by_cases h1 : 16384 < x.length ∨ room < x.length + 22
  · rw [if_pos h1] at h; cases h
  rw [if_neg h1] at h ⊢
  simp only [Spec.contentType] at h ⊢
  by_cases h2 : m.outDead = true ∨ m.out.seq = 2 ^ 64
  · rw [if_pos h2] at h; cases h
  rw [if_neg h2]
  simp [dirProtect_length, Spec.innerPlaintext]

theorem sendAll_room {L : Lib} (xs : List Bytes) : ∀ {m : Machine} {room room' : Nat},
    (xs.map fun x => x.length + 22).sum ≤ room → (xs.map fun x => x.length + 22).sum ≤ room' →
    m.sendAll L xs room = m.sendAll L xs room' := by
  induction xs with
  | nil => intros; rfl
  | cons x xs ih =>
    intro m room room' h h'
    simp only [List.map_cons, List.sum_cons] at h h'
    have e := send_room (L := L) (m := m) (x := x) (room := room) (room' := room') (by omega)
      (by omega)
    have hl := send_length (L := L) (m := m) (x := x) (room := room)
    generalize hs : m.send L .applicationData x room = y at e hl
    obtain ⟨m', code, w⟩ := y
    rw [sendAll_cons hs, sendAll_cons e.symm]
    by_cases hc : code = .ok
    · have hl := hl hc
      simp only at hl
      rw [if_pos hc, if_pos hc, ih (by omega) (room' := room' - w.length) (by omega)]
    · rw [if_neg hc, if_neg hc]

theorem fragments_room (b : Bytes) :
    ((fragments b).map fun x => x.length + 22).sum = b.length + 22 * recordCount b.length := by
  have : ∀ l : List Bytes, (l.map fun x => x.length + 22).sum = l.flatten.length + 22 * l.length := by
    intro l
    induction l with
    | nil => rfl
    | cons x l ih =>
      simp only [List.map_cons, List.sum_cons, ih, List.flatten_cons, List.length_append,
        List.length_cons]
      omega
  rw [this, fragments_flatten, fragments_length]

theorem protect_room {L : Lib} {m : Machine} {b : Bytes} {room : Nat}
    (h : b.length + 22 * recordCount b.length ≤ room) :
    m.protect L b room = m.protect L b (b.length + 22 * recordCount b.length) := by
  unfold Machine.protect
  exact sendAll_room _ (by rw [fragments_room]; exact h) (by rw [fragments_room]; exact Nat.le_refl _)

/-- What `Answers` says, with `SeesRoomy`. -/
def AnswersRoomy (L : Lib) (A : Allocator) (op : Op) (o : Option (Machine × Spec.FrameAnswer))
    (x : Exec (State × Event)) : Prop :=
  match o with
  | none => x = .error .negativeShift
  | some (m, ans) => ∃ s e, x = .ok (s, e) ∧ SeesRoomy A op e ans ∧ Acts L s.conn m

theorem acts_protectRoomy {L : Lib} {A : Allocator} (hA : Roomy A) {s : State} {m : Machine}
    {f : Nat → EvpFault} {vs : List Iovec} (a : Acts L s.conn m) (hw : AllWF vs)
    (hf : ∀ j, f j = .none) :
    AnswersRoomy L A (.protect f vs) (m.frameStep L (Op.plain (.protect f vs)))
      (step L A s (.protect f vs)) := by
  simp only [Op.plain, Machine.frameStep, step]
  unfold protect
  rw [numberBytesToProtect_eq, hw.totalLen_eq, handOut_eq]
  generalize hn : (flat vs).length + 22 * recordCount (flat vs).length = n
  obtain ⟨d, hd1, hd2⟩ := hA s.next n
  simp only [State.alloc, hd1]
  have := acts_protectInto_or (f := f) (id := .heap s.next) (s := { s with next := s.next + 1, mem := s.mem ++ [.alloc (.heap s.next) n] }) (out := .buf d) a hw trivial
  simp only [Iovec.len] at this
  rw [protect_room (by omega), hn] at this
  rcases this with ⟨s', out', h1, h2, h3⟩ | ⟨⟨j, h0⟩, _⟩
  case inr => exact absurd (hf j) h0
  rw [h1]
  simp only [exec_bind_ok]
  by_cases hok : (m.protect L (flat vs) n).2.1 = .ok
  · rw [if_neg (not_not_intro hok), if_pos hok]
    refine ⟨_, _, rfl, ?_, h2⟩
    obtain ⟨w, g1, g2, g3⟩ := h3 hok
    simp only [SeesRoomy]
    rw [if_pos hok]
    refine ⟨trivial, s.next, ?_⟩
    rw [← g1, g3]
    simp only [List.flatten_cons, List.flatten_nil, List.append_nil]
    rw [g2, hd1]
  · rw [if_pos hok, if_neg hok]
    refine ⟨_, _, rfl, ?_, h2⟩
    simp only [SeesRoomy]
    rw [if_neg hok]
    exact ⟨rfl, rfl⟩

theorem acts_stepRoomy {L : Lib} {A : Allocator} (hA : Roomy A) {s : State} {m : Machine}
    {op : Op} (a : Acts L s.conn m) (hf : op.Fine) :
    AnswersRoomy L A op (m.frameStep L op.plain) (step L A s op) := by
  have other : (∀ f vs, op ≠ .protect f vs) →
      AnswersRoomy L A op (m.frameStep L op.plain) (step L A s op) := by
    intro hop
    rcases acts_frameStep_roomy hA a (fine_usable hf).1 hop with h | h
    · generalize m.frameStep L op.plain = o at h
      cases o with
      | none => exact h
      | some y =>
        obtain ⟨m', ans⟩ := y
        obtain ⟨s', e, h1, h2, h3⟩ := h
        refine ⟨s', e, h1, ?_, h3⟩
        cases op with
        | protect f vs => exact absurd rfl (hop f vs)
        | protectInto f vs out => exact h2
        | unprotect f vs => exact h2
        | unprotectInto f vs out => exact h2
    · exact absurd h.1 (fine_usable hf).2
  cases op with
  | protect f vs => exact acts_protectRoomy hA a hf.2 hf.1
  | protectInto f vs out => exact other (by simp)
  | unprotect f vs => exact other (by simp)
  | unprotectInto f vs out => exact other (by simp)

theorem acts_runRoomy {L : Lib} {A : Allocator} (hA : Roomy A) {ops : List Op} :
    ∀ {s : State} {m : Machine}, Acts L s.conn m → (∀ op ∈ ops, op.Fine) →
    match m.frameRun L (ops.map Op.plain) with
    | none => run L A s ops = .error .negativeShift
    | some (m', as) => ∃ s' es, run L A s ops = .ok (s', es) ∧ SeesAllRoomy A ops es as ∧
        Acts L s'.conn m' := by
  induction ops with
  | nil => intro s m a _; exact ⟨_, _, rfl, trivial, a⟩
  | cons op ops ih =>
    intro s m a hf
    have h1 := acts_stepRoomy (op := op) hA a (hf op (by simp))
    simp only [List.map_cons, Machine.frameRun, run]
    generalize m.frameStep L op.plain = o at h1
    cases o with
    | none =>
      have h1 : step L A s op = .error .negativeShift := h1
      rw [h1]; rfl
    | some y =>
      obtain ⟨m1, ans⟩ := y
      obtain ⟨c1, e, e1, e2, e3⟩ := h1
      have h2 := ih e3 (fun op h => hf op (by simp [h]))
      rw [e1]
      simp only [exec_bind_ok]
      generalize m1.frameRun L (ops.map Op.plain) = o at h2
      cases o with
      | none =>
        simp only at h2 ⊢
        rw [h2]; rfl
      | some y =>
        obtain ⟨m2, as⟩ := y
        obtain ⟨c2, es, g1, g2, g3⟩ := h2
        rw [g1]
        exact ⟨_, _, rfl, ⟨e2, g2⟩, g3⟩

end S2A.Frame
