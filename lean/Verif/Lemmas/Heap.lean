import Verif.Spec.Heap
import Verif.Lemmas.FrameSession
namespace S2A.Frame
open HalfConn (exec_bind_eq_ok)
open Spec (AllocOk Life given ProtectFailed UnprotectFailedPrecondition codesOf lostBy CallMade)

theorem Heap.run_append (h : Heap) (es fs : List MemEvent) :
    h.run (es ++ fs) = (do let h' ← h.run es; h'.run fs) := by
  induction es generalizing h with
  | nil => rfl
  | cons e es ih =>
    simp only [List.cons_append, Heap.run]
    cases h.step e with
    | error x => rfl
    | ok h' => simp only [exec_bind_ok, ih]

theorem Heap.run_append_ok {h h1 : Heap} {es fs : List MemEvent} (h' : h.run es = .ok h1) :
    h.run (es ++ fs) = h1.run fs := by
  rw [Heap.run_append, h', exec_bind_ok]

theorem Heap.run_alloc {h : Heap} {id n} (hi : id ∉ h) : h.run [.alloc id n] = .ok (id :: h) := by
  simp [Heap.run, Heap.step, hi]

theorem Heap.run_destroy {h : Heap} {id n} (hi : id ∈ h) :
    h.run [.destroy id n] = .ok (h.erase id) := by
  simp [Heap.run, Heap.step, hi]

theorem readHeader_status {k i : Nat} {vs : List Iovec} {on : Nat} {e : StatusCode}
    (h : readHeader k i vs on = .ok (.error e)) : e = .failedPrecondition := by
  induction k generalizing i vs on with
  | zero => cases h
  | succ k ih =>
    cases vs with
    | nil => cases h; rfl
    | cons v vs =>
      cases v with
      | null n => cases h
      | buf d =>
        simp only [readHeader, exec_bind_eq_ok] at h
        obtain ⟨b, _, h⟩ := h
        split at h
        · cases h; rfl
        · obtain ⟨x, h1, h2⟩ := exec_bind_eq_ok.1 h
          cases x with
          | error e' => cases h2; exact ih h1
          | ok y => cases h2

theorem isolate_status {vs : List Iovec} {on n : Nat} {e : StatusCode}
    (h : isolate vs on n = .ok (.error e)) : e = .failedPrecondition := by
  induction vs generalizing on n with
  | nil =>
    cases n with
    | zero => cases h
    | succ n => cases h; rfl
  | cons v vs ih =>
    cases n with
    | zero => cases h
    | succ n =>
      cases v with
      | null n => cases h
      | buf d =>
        simp only [isolate, exec_bind_eq_ok] at h
        obtain ⟨left, _, piece, _, h⟩ := h
        split at h
        · obtain ⟨x, h1, h2⟩ := exec_bind_eq_ok.1 h
          cases x with
          | error e' => cases h2; exact ih h1
          | ok y => cases h2
        · cases h

/-- Destroy a list of buffers. -/
theorem destroyAll_run (s : State) (done : List (BufId × Bytes)) :
    ∃ new, (s.destroyAll done).mem = s.mem ++ new ∧ (s.destroyAll done).next = s.next ∧
      ∀ (h other : Heap), h.Perm (done.map (·.1) ++ other) → ∃ h', h.run new = .ok h' ∧
        h'.Perm other := by
  induction done generalizing s with
  | nil => exact ⟨[], by simp [State.destroyAll], rfl, fun h other hp => ⟨h, rfl, hp⟩⟩
  | cons x done ih =>
    obtain ⟨id, b⟩ := x
    obtain ⟨new, h1, h2, h3⟩ := ih (s.destroy id b.length)
    refine ⟨.destroy id b.length :: new, ?_, h2, fun h other hp => ?_⟩
    · show ((s.destroy id b.length).destroyAll done).mem = _
      rw [h1]
      simp [State.destroy]
    · simp only [List.map_cons, List.cons_append] at hp
      have hm : id ∈ h := hp.mem_iff.2 (by simp)
      obtain ⟨h', h4, h5⟩ := h3 (h.erase id) other (by
        have := hp.erase id
        rwa [List.erase_cons_head] at this)
      refine ⟨h', ?_, h5⟩
      simp only [Heap.run, Heap.step, if_pos hm, exec_bind_ok, h4]

/-- What the loop of the allocating `Unprotect` does to the memory, whatever it is given. -/
theorem unprotectLoop_heap (L : Lib) (A : Allocator) (f : Nat → Record.Fault)
    (fuel i : Nat) (s s' : State) (vs : List Iovec) (on rem : Nat) (done : List (BufId × Bytes))
    (res : Result)
    (h : unprotectLoop L A f fuel i s vs on rem done = .ok (s', res)) :
    ∃ new evs, s'.mem = s.mem ++ new ∧ s'.evs = s.evs ++ evs ∧ s.next ≤ s'.next ∧
      ∀ (hp other : Heap), hp.Perm (done.map (·.1) ++ other) →
        (∀ id ∈ hp, ∃ j, id = .heap j ∧ j < s.next) → ∃ hp', hp.run new = .ok hp' ∧
        (∀ id ∈ hp', ∃ j, id = .heap j ∧ j < s'.next) ∧
        ((res.status = .ok ∧ hp'.Perm (res.bytes.map (·.1) ++ other)) ∨
         (res.bytes = [] ∧ hp'.Perm other ∧ ∃ c ∈ codesOf evs, c ≠ .ok) ∨
         (res.bytes = [] ∧ res.status = .failedPrecondition ∧ (∀ c ∈ codesOf evs, c = .ok) ∧
          ∃ lost, hp'.Perm (lost ++ other) ∧
            lost.length = done.length + (codesOf evs).length)) := by
  induction fuel generalizing i s vs on rem done with
  | zero => cases h
  | succ fuel ih =>
    unfold unprotectLoop at h
    by_cases hge : rem ≥ s.conn.recordOverhead
    case neg =>
      rw [if_neg hge] at h
      cases h
      exact ⟨[], [], by simp, by simp, Nat.le_refl _, fun hp other h1 h2 =>
        ⟨hp, rfl, h2, Or.inl ⟨rfl, h1⟩⟩⟩
    rw [if_pos hge] at h
    obtain ⟨x, hx, h⟩ := exec_bind_eq_ok.1 h
    have hlost : ∀ st, (∀ e, x = .error e → st = e) → st = .failedPrecondition →
        .ok (s, (⟨st, []⟩ : Result)) = (.ok (s', res) : Exec (State × Result)) →
        ∃ new evs, s'.mem = s.mem ++ new ∧ s'.evs = s.evs ++ evs ∧ s.next ≤ s'.next ∧
      ∀ (hp other : Heap), hp.Perm (done.map (·.1) ++ other) →
        (∀ id ∈ hp, ∃ j, id = .heap j ∧ j < s.next) → ∃ hp', hp.run new = .ok hp' ∧
        (∀ id ∈ hp', ∃ j, id = .heap j ∧ j < s'.next) ∧
        ((res.status = .ok ∧ hp'.Perm (res.bytes.map (·.1) ++ other)) ∨
         (res.bytes = [] ∧ hp'.Perm other ∧ ∃ c ∈ codesOf evs, c ≠ .ok) ∨
         (res.bytes = [] ∧ res.status = .failedPrecondition ∧ (∀ c ∈ codesOf evs, c = .ok) ∧
          ∃ lost, hp'.Perm (lost ++ other) ∧
            lost.length = done.length + (codesOf evs).length)) := by
      intro st _ hst he
      cases he
      exact ⟨[], [], by simp, by simp, Nat.le_refl _, fun hp other h1 h2 =>
        ⟨hp, rfl, h2, Or.inr (Or.inr ⟨rfl, hst, fun c hc => (by cases hc), done.map (·.1), h1,
          by simp [codesOf]⟩)⟩⟩
    cases x with
    | error e =>
      simp only at h
      have : e = .failedPrecondition := by
        exact readHeader_status hx
      exact hlost e (fun e' he => by cases he; rfl) this h
    | ok y =>
      obtain ⟨hd, vs1, on1⟩ := y
      simp only at h
      obtain ⟨x, hx', h⟩ := exec_bind_eq_ok.1 h
      cases x with
      | error e =>
        simp only at h
        exact hlost e (fun e' he => by cases he) (isolate_status hx') h
      | ok y =>
        obtain ⟨ps, vs2, on2⟩ := y
        simp only [State.alloc, State.crypterUnprotect] at h
        obtain ⟨⟨s1, r1⟩, hu, h⟩ := exec_bind_eq_ok.1 h
        obtain ⟨⟨c, r⟩, hu1, hu2⟩ := exec_bind_eq_ok.1 hu
        cases hu2
        simp only at h
        by_cases hcode : r.code = .ok
        case neg =>
          rw [if_pos hcode] at h
          cases h
          obtain ⟨new, g1, g2, g3⟩ := destroyAll_run (State.destroy { s with next := s.next + 1, mem := s.mem ++ [.alloc (.heap s.next) (payloadSize hd)], conn := c, evs := s.evs ++ [.opened r] } (.heap s.next) (A s.next (payloadSize hd)).len) done
          refine ⟨.alloc (.heap s.next) (payloadSize hd) :: .destroy (.heap s.next) (A s.next (payloadSize hd)).len :: new, [.opened r], ?_, ?_, ?_, fun hp other h1 h2 => ?_⟩
          · rw [g1]
            simp [State.destroy]
          · rw [destroyAll_eq]; rfl
          · rw [g2]
            simp [State.destroy]
          · have hni : BufId.heap s.next ∉ hp := by
              intro hm
              obtain ⟨j, e, hj⟩ := h2 _ hm
              cases e
              omega
            obtain ⟨hp', k1, k2⟩ := g3 hp other h1
            refine ⟨hp', ?_, ?_, Or.inr (Or.inl ⟨rfl, k2, r.code, by simp [codesOf], hcode⟩)⟩
            · simp only [Heap.run, Heap.step, if_neg hni, exec_bind_ok, List.mem_cons, true_or,
                if_true, List.erase_cons_head, k1]
            · intro id hid
              obtain ⟨j, e, hj⟩ := h2 id (h1.mem_iff.2 (by simp [k2.mem_iff.1 hid]))
              exact ⟨j, e, by rw [g2]; simp only [State.destroy]; omega⟩
        rw [if_neg (not_not_intro hcode)] at h
        obtain ⟨rem', _, h⟩ := exec_bind_eq_ok.1 h
        obtain ⟨new, evs, g1, g0, g2, g3⟩ := ih _ _ _ _ _ _ h
        refine ⟨.alloc (.heap s.next) (payloadSize hd) :: new, .opened r :: evs, ?_, ?_, ?_,
          fun hp other h1 h2 => ?_⟩
        · rw [g1]; simp
        · rw [g0]; simp
        · simp only at g2; omega
        · have hni : BufId.heap s.next ∉ hp := by
            intro hm
            obtain ⟨j, e, hj⟩ := h2 _ hm
            cases e
            omega
          obtain ⟨hp', k1, k2, k3⟩ := g3 (.heap s.next :: hp) other
            (by
              simp only [List.map_append, List.map_cons, List.map_nil, List.append_assoc,
                List.cons_append, List.nil_append]
              exact (h1.cons _).trans List.perm_middle.symm)
            (by
              intro id hid
              rcases List.mem_cons.1 hid with rfl | hid
              · exact ⟨s.next, rfl, by simp⟩
              · obtain ⟨j, e, hj⟩ := h2 id hid
                exact ⟨j, e, by simp only; omega⟩)
          refine ⟨hp', ?_, k2, ?_⟩
          · simp only [Heap.run, Heap.step, if_neg hni, exec_bind_ok, k1]
          · rcases k3 with k3 | ⟨k3, k4, c, hc, k5⟩ | ⟨k3, k4, k5, lost, k6, k7⟩
            · exact Or.inl k3
            · exact Or.inr (Or.inl ⟨k3, k4, c, by simp [codesOf, hc], k5⟩)
            · refine Or.inr (Or.inr ⟨k3, k4, ?_, lost, k6, ?_⟩)
              · intro c hc
                simp only [codesOf, List.mem_cons] at hc
                rcases hc with rfl | hc
                · exact hcode
                · exact k5 c hc
              · rw [k7]
                simp only [List.length_append, List.length_cons, List.length_nil, codesOf]
                omega

theorem unprotect_heap (L : Lib) (A : Allocator) (f : Nat → Record.Fault) (s s' : State)
    (vs : List Iovec) (res : Result) (h : unprotect L A f s vs = .ok (s', res)) :
    ∃ new evs, s'.mem = s.mem ++ new ∧ s'.evs = s.evs ++ evs ∧ s.next ≤ s'.next ∧
      ∀ hp : Heap, (∀ id ∈ hp, ∃ j, id = .heap j ∧ j < s.next) → ∃ hp', hp.run new = .ok hp' ∧
        (∀ id ∈ hp', ∃ j, id = .heap j ∧ j < s'.next) ∧
        ((hp'.Perm (res.bytes.map (·.1) ++ hp) ∧
          (res.status = .ok ∨ ∃ c ∈ codesOf evs, c ≠ .ok)) ∨
         (res.bytes = [] ∧ res.status = .failedPrecondition ∧ (∀ c ∈ codesOf evs, c = .ok) ∧
          ∃ lost, hp'.Perm (lost ++ hp) ∧ lost.length = (codesOf evs).length)) := by
  unfold unprotect at h
  simp only at h
  split at h
  · cases h
    exact ⟨[], [], by simp, by simp, Nat.le_refl _, fun hp h2 => ⟨hp, rfl, h2, Or.inr
      ⟨rfl, rfl, fun c hc => (by cases hc), [], .refl _, rfl⟩⟩⟩
  · obtain ⟨new, evs, g1, g0, g2, g3⟩ := unprotectLoop_heap L A f _ _ _ _ _ _ _ _ _ h
    refine ⟨new, evs, g1, g0, g2, fun hp h2 => ?_⟩
    obtain ⟨hp', k1, k2, k3⟩ := g3 hp hp (.refl _) h2
    refine ⟨hp', k1, k2, ?_⟩
    rcases k3 with ⟨k4, k3⟩ | ⟨k3, k4, k5⟩ | ⟨k3, k4, k5, lost, k6, k7⟩
    · exact Or.inl ⟨k3, Or.inl k4⟩
    · exact Or.inl ⟨by rw [k3]; exact k4, Or.inr k5⟩
    · exact Or.inr ⟨k3, k4, k5, lost, k6, by simpa using k7⟩

theorem protectLoop_heap (L : Lib) (f : Nat → EvpFault) (id : BufId)
    (fuel i : Nat) (s s' : State) (vs : List Iovec) (on : Nat) (first : Bool) (rem idx : Nat)
    (out out' : Iovec) (st : StatusCode)
    (h : protectLoop L f id fuel i s vs on first rem idx out = .ok (s', st, out')) :
    s'.next = s.next ∧ ((st = .ok ∧ s'.mem = s.mem) ∨
      (st ≠ .ok ∧ ∃ n, s'.mem = s.mem ++ [.destroy id n])) := by
  induction fuel generalizing i s vs on first rem idx out with
  | zero => cases h
  | succ fuel ih =>
    unfold protectLoop at h
    by_cases hc : (first || decide (rem > 0)) = true
    case neg =>
      rw [if_neg hc] at h
      cases h
      exact ⟨rfl, Or.inl ⟨rfl, rfl⟩⟩
    rw [if_pos hc] at h
    generalize (if rem < kMaxPlaintext then rem else kMaxPlaintext) = m at h
    simp only [exec_bind_eq_ok, State.crypterProtect] at h
    obtain ⟨⟨ps, vs1, on1⟩, _, room, _, slot, _, ⟨s1, r1⟩, ⟨⟨c, r⟩, _, h2⟩, h⟩ := h
    cases h2
    simp only at h
    split at h
    next hcode =>
      cases h
      exact ⟨rfl, Or.inr ⟨fun hx => hcode (convertCode_ok.1 hx), _, rfl⟩⟩
    next =>
      split at h
      · cases h
        exact ⟨rfl, Or.inr ⟨by simp, _, rfl⟩⟩
      · have := ih _ _ _ _ _ _ _ _ h
        exact this

theorem unprotectInto_heap (L : Lib) (f : Record.Fault) (s s' : State)
    (vs : List Iovec) (out out' : Iovec) (st : StatusCode) (n : Nat)
    (h : unprotectInto L f s vs out = .ok (s', st, n, out')) : s'.mem = s.mem ∧ s'.next = s.next := by
  unfold unprotectInto at h
  split at h
  · cases h; exact ⟨rfl, rfl⟩
  obtain ⟨x, hx, h⟩ := exec_bind_eq_ok.1 h
  cases x with
  | error e => cases h; exact ⟨rfl, rfl⟩
  | ok y =>
    obtain ⟨hd, vs1, on1⟩ := y
    simp only at h
    obtain ⟨x, hx', h⟩ := exec_bind_eq_ok.1 h
    cases x with
    | error e => cases h; exact ⟨rfl, rfl⟩
    | ok y =>
      obtain ⟨ps, vs2, on2⟩ := y
      simp only [State.crypterUnprotect] at h
      obtain ⟨⟨s1, r⟩, hu, h⟩ := exec_bind_eq_ok.1 h
      obtain ⟨⟨c, r'⟩, hu1, hu2⟩ := exec_bind_eq_ok.1 hu
      cases hu2
      simp only at h
      split at h <;> (cases h; exact ⟨rfl, rfl⟩)

/-- Over the life of a connection. -/
theorem Life.heap {L : Lib} {A : Allocator} {o : Options} {s : State} {held log hist}
    (h : Life L A o s held log hist) (hok : ∀ x ∈ hist, ¬ ProtectFailed x) :
    ∃ (hp lost : Heap), Heap.run [] log = .ok hp ∧ hp.Perm (held ++ lost) ∧
      (∀ id ∈ hp, ∃ j, id = .heap j ∧ j < s.next) ∧
      (lost ≠ [] → ∃ x ∈ hist, UnprotectFailedPrecondition x) ∧
      lost.length = (hist.map lostBy).sum := by
  induction h with
  | start hc => exact ⟨[], [], rfl, .refl _, by simp, by simp, rfl⟩
  | release n h hm ih =>
    obtain ⟨hp, lost, h1, h2, h3, h4, h5⟩ := ih hok
    next id =>
    have hmem : id ∈ hp := h2.mem_iff.2 (by simp [hm])
    refine ⟨hp.erase id, lost, ?_, ?_, fun x hx => h3 x (List.mem_of_mem_erase hx), h4, h5⟩
    · rw [Heap.run_append_ok h1, Heap.run_destroy hmem]
    · have := h2.erase id
      rwa [List.erase_append_left _ hm] at this
  | @call s s' held log hist op e new h hst hmem ih =>
    obtain ⟨hp, lost, h1, h2, h3, h4, h5⟩ := ih fun x hx => hok x (by simp [hx])
    have hthis := hok (.from s s' op e) (by simp)
    have hsum : ((hist ++ [CallMade.from s s' op e]).map lostBy).sum =
        (hist.map lostBy).sum + lostBy (.from s s' op e) := by simp
    have h4' : lost ≠ [] → ∃ x ∈ hist ++ [CallMade.from s s' op e], UnprotectFailedPrecondition x := fun hl => by
      obtain ⟨x, hx, hx'⟩ := h4 hl
      exact ⟨x, by simp [hx], hx'⟩
    cases op with
    | protect f vs =>
      simp only [Frame.step, exec_bind_eq_ok] at hst
      obtain ⟨⟨s1, r⟩, g1, g2⟩ := hst
      cases g2
      simp only [ProtectFailed, CallMade.from, Decidable.not_not] at hthis
      simp only [protect, State.alloc, exec_bind_eq_ok] at g1
      obtain ⟨⟨s2, st, out⟩, g1, g2⟩ := g1
      obtain ⟨g3, g4⟩ := protectLoop_heap _ _ _ _ _ _ _ _ _ _ _ _ _ _ _ g1
      simp only at g2
      split at g2
      next hst => cases g2; exact absurd hthis hst
      next hst =>
      cases g2
      rcases g4 with ⟨_, g4⟩ | ⟨g4, _⟩
      case inr => exact absurd g4 hst
      rw [g4] at hmem
      have := List.append_cancel_left hmem
      subst this
      have hni : BufId.heap s.next ∉ hp := by
        intro hm
        obtain ⟨j, e, hj⟩ := h3 _ hm
        cases e
        omega
      refine ⟨.heap s.next :: hp, lost, ?_, ?_, ?_, h4', by rw [hsum, h5]; rfl⟩
      · rw [Heap.run_append_ok h1, Heap.run_alloc hni]
      · simp only [given, List.map_cons, List.map_nil, List.append_assoc, List.cons_append,
          List.nil_append]
        exact (h2.cons _).trans List.perm_middle.symm
      · intro id hid
        rw [g3]
        rcases List.mem_cons.1 hid with rfl | hid
        · exact ⟨s.next, rfl, by simp⟩
        · obtain ⟨j, e, hj⟩ := h3 id hid
          exact ⟨j, e, by simp only; omega⟩
    | protectInto f vs out =>
      simp only [Frame.step, exec_bind_eq_ok] at hst
      obtain ⟨⟨s1, st, out'⟩, g1, g2⟩ := hst
      cases g2
      simp only [ProtectFailed, CallMade.from, Decidable.not_not] at hthis
      obtain ⟨g3, g4⟩ := protectLoop_heap _ _ _ _ _ _ _ _ _ _ _ _ _ _ _ g1
      rcases g4 with ⟨_, g4⟩ | ⟨g4, _⟩
      case inr => exact absurd hthis g4
      rw [g4] at hmem
      have : new = [] := by simpa using hmem
      subst this
      refine ⟨hp, lost, by simpa using h1, by simpa [given] using h2, ?_, h4', by rw [hsum, h5]; rfl⟩
      rw [g3]
      exact h3
    | unprotectInto f vs out =>
      simp only [Frame.step, exec_bind_eq_ok] at hst
      obtain ⟨⟨s1, st, n, out'⟩, g1, g2⟩ := hst
      cases g2
      obtain ⟨g3, g4⟩ := unprotectInto_heap _ _ _ _ _ _ _ _ _ g1
      rw [g3] at hmem
      have : new = [] := by simpa using hmem
      subst this
      refine ⟨hp, lost, by simpa using h1, by simpa [given] using h2, ?_, h4', by rw [hsum, h5]; rfl⟩
      rw [g4]
      exact h3
    | unprotect f vs =>
      simp only [Frame.step, exec_bind_eq_ok] at hst
      obtain ⟨⟨s1, r⟩, g1, g2⟩ := hst
      cases g2
      obtain ⟨new', evs, g3, g0, g4, g5⟩ := unprotect_heap _ _ _ _ _ _ _ g1
      rw [g3] at hmem
      have := List.append_cancel_left hmem
      subst this
      have hcodes : codesOf (s1.evs.drop s.evs.length) = codesOf evs := by
        rw [g0, List.drop_left]
      have hl : lostBy (.from s s1 (.unprotect f vs) (.result r)) =
          if r.status ≠ .ok ∧ ∀ c ∈ codesOf evs, c = .ok then (codesOf evs).length else 0 := by
        rw [← hcodes]; rfl
      obtain ⟨hp', k1, k2, k3⟩ := g5 hp h3
      rcases k3 with ⟨k3, k4⟩ | ⟨k3, k4, k6, more, k5, k7⟩
      · refine ⟨hp', lost, by rw [Heap.run_append_ok h1, k1], ?_, k2, h4', ?_⟩
        · simp only [given]
          refine k3.trans ?_
          rw [List.append_assoc]
          refine (h2.append_left _).trans ?_
          rw [← List.append_assoc, ← List.append_assoc]
          exact List.perm_append_comm.append_right _
        · rw [hsum, h5]; dsimp only; rw [hl, if_neg]
          · rfl
          · rintro ⟨q1, q2⟩
            rcases k4 with k4 | ⟨c, hc, k4⟩
            · exact q1 k4
            · exact k4 (q2 c hc)
      · refine ⟨hp', more ++ lost, by rw [Heap.run_append_ok h1, k1], ?_, k2, fun _ =>
          ⟨.from s s1 (.unprotect f vs) (.result r), by simp, k4⟩, ?_⟩
        · simp only [given, k3, List.map_nil, List.append_nil]
          refine k5.trans ?_
          refine (h2.append_left _).trans ?_
          rw [← List.append_assoc, ← List.append_assoc]
          exact List.perm_append_comm.append_right _
        · rw [hsum]; dsimp only; rw [hl, if_pos ⟨by rw [k4]; simp, k6⟩, List.length_append, k7, h5]
          omega

theorem Life.fresh {L : Lib} {A : Allocator} {o : Options} {s : State} {held log hist}
    (h : Life L A o s held log hist) (hok : ∀ x ∈ hist, ¬ ProtectFailed x) {f vs s' r new}
    (hst : Frame.step L A s (.protect f vs) = .ok (s', .result r)) (hmem : s'.mem = s.mem ++ new)
    (hr : r.status ≠ .ok) : Heap.run [] (log ++ new) = .error .useAfterFree := by
  obtain ⟨hp, lost, h1, h2, h3, h4, _⟩ := Life.heap h hok
  simp only [Frame.step, exec_bind_eq_ok] at hst
  obtain ⟨⟨s1, r⟩, g1, g2⟩ := hst
  cases g2
  simp only [protect, State.alloc, exec_bind_eq_ok] at g1
  obtain ⟨⟨s2, st, out⟩, g1, g2⟩ := g1
  obtain ⟨g3, g4⟩ := protectLoop_heap _ _ _ _ _ _ _ _ _ _ _ _ _ _ _ g1
  simp only at g2
  split at g2
  case isFalse => cases g2; exact absurd rfl hr
  next hst =>
  cases g2
  rcases g4 with ⟨g4, _⟩ | ⟨_, n, g4⟩
  · exact absurd g4 hst
  simp only [State.destroy, g4] at hmem
  rw [List.append_assoc, List.append_assoc] at hmem
  have := List.append_cancel_left hmem
  subst this
  have hni : BufId.heap s.next ∉ hp := by
    intro hm
    obtain ⟨j, e, hj⟩ := h3 _ hm
    cases e
    omega
  rw [Heap.run_append_ok h1]
  simp [Heap.run, Heap.step, hni]

theorem Heap.run_error {h : Heap} {es fs : List MemEvent} {x} (h' : h.run es = .error x) :
    h.run (es ++ fs) = .error x := by
  rw [Heap.run_append, h']
  rfl

/-- Once a `Protect` has failed. -/
theorem Life.breaks {L : Lib} {A : Allocator} {o : Options} {s : State} {held log hist}
    (h : Life L A o s held log hist) (hbad : ∃ x ∈ hist, ProtectFailed x) :
    Heap.run [] log = .error .useAfterFree := by
  induction h with
  | start hc => obtain ⟨x, hx, _⟩ := hbad; cases hx
  | release n h hm ih => exact Heap.run_error (ih hbad)
  | @call s s' held log hist op e new h hst hmem ih =>
    by_cases hb : ∃ x ∈ hist, ProtectFailed x
    · exact Heap.run_error (ih hb)
    have hok : ∀ x ∈ hist, ¬ ProtectFailed x := fun x hx hp => hb ⟨x, hx, hp⟩
    have hthis : ProtectFailed (.from s s' op e) := by
      obtain ⟨x, hx, hp⟩ := hbad
      rcases List.mem_append.1 hx with hx | hx
      · exact absurd hp (hok x hx)
      · rw [List.mem_singleton] at hx
        rwa [hx] at hp
    cases op with
    | protect f vs =>
      have hst' := hst
      simp only [Frame.step, exec_bind_eq_ok] at hst'
      obtain ⟨⟨s1, r⟩, g1, g2⟩ := hst'
      cases g2
      exact Life.fresh h hok hst hmem hthis
    | protectInto f vs out =>
      obtain ⟨hp, lost, h1, h2, h3, _⟩ := Life.heap h hok
      simp only [Frame.step, exec_bind_eq_ok] at hst
      obtain ⟨⟨s1, st, out'⟩, g1, g2⟩ := hst
      cases g2
      obtain ⟨_, g4⟩ := protectLoop_heap _ _ _ _ _ _ _ _ _ _ _ _ _ _ _ g1
      rcases g4 with ⟨g4, _⟩ | ⟨_, n, g4⟩
      · exact absurd g4 hthis
      rw [g4] at hmem
      have := List.append_cancel_left hmem
      subst this
      have hni : BufId.caller ∉ hp := by
        intro hm
        obtain ⟨j, e, _⟩ := h3 _ hm
        cases e
      rw [Heap.run_append_ok h1]
      simp [Heap.run, Heap.step, hni]
    | unprotectInto f vs out => cases e <;> exact hthis.elim
    | unprotect f vs => cases e <;> exact hthis.elim

end S2A.Frame
