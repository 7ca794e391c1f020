import Verif.Lemmas.FrameFlat
import Verif.Lemmas.Heap
/-
The allocating `Unprotect` of some records followed by other bytes is `Unprotect` of the
records and then of the other bytes.
-/
namespace S2A.Frame
open Spec (NonEmptyBufs AllocOk)
open HalfConn (exec_bind_eq_ok)

/-- The bytes of records. -/
abbrev bytesOf (recs : List (Bytes × Bytes)) : Bytes := (recs.map fun r => r.1 ++ r.2).flatten

theorem bytesOf_nil : bytesOf [] = [] := rfl

theorem bytesOf_cons (r : Bytes × Bytes) (recs) : bytesOf (r :: recs) = r.1 ++ r.2 ++ bytesOf recs := by
  simp [bytesOf]

theorem _root_.S2A.Spec.Batch.large {recs b} (h : Spec.Batch recs b) :
    ∀ r ∈ recs, Spec.Whole r.1 r.2 ∧ 17 ≤ r.2.length := by
  intro r hr
  have h1 := h.whole r hr
  have h2 := h.long r hr
  have : r.1.length = 5 := by rw [h1.header]; rfl
  exact ⟨h1, by omega⟩

/-- The number of iterations allowed for does not matter if it is large enough. -/
theorem unprotectLoop_fuel (L : Lib) (A : Allocator) (f : Nat → Record.Fault) (F G i : Nat)
    (s : State) (vs : List Iovec) (on rem : Nat) (done : List (BufId × Bytes)) (hF : rem < F)
    (hG : rem < G) :
    unprotectLoop L A f F i s vs on rem done = unprotectLoop L A f G i s vs on rem done := by
  induction F generalizing G i s vs on rem done with
  | zero => omega
  | succ F ih =>
    obtain ⟨G, rfl⟩ : ∃ g, G = g + 1 := ⟨G - 1, by omega⟩
    unfold unprotectLoop
    by_cases hge : rem ≥ s.conn.recordOverhead
    case neg => rw [if_neg hge, if_neg hge]
    rw [if_pos hge, if_pos hge]
    congr 1
    funext x
    rcases x with e | ⟨hd, vs1, on1⟩
    · rfl
    simp only
    congr 1
    funext x
    rcases x with e | ⟨ps, vs2, on2⟩
    · rfl
    simp only
    congr 1
    funext x
    obtain ⟨s1, r⟩ := x
    simp only
    split
    · rfl
    · by_cases hle : kHeaderLength + payloadSize hd ≤ rem
      · rw [subSize_ok hle]
        simp only [exec_bind_ok]
        simp only [kHeaderLength] at hle ⊢
        exact ih _ _ _ _ _ _ _ (by omega) (by omega)
      · simp only [subSize, if_neg hle]
        rfl

/-- One buffer, or none for no bytes. -/
def one (b : Bytes) : List Iovec := if b = [] then [] else [.buf b]

theorem one_bufs (b : Bytes) : NonEmptyBufs (one b) := by
  unfold one
  split
  · intro v hv; cases hv
  · next h => intro v hv; rw [List.mem_singleton.1 hv]; exact ⟨b, rfl, h⟩

theorem flat_one (b : Bytes) : flat (one b) = b := by
  unfold one
  split
  · next h => simp [h]
  · simp [Iovec.bytes]

/-- What follows the records: nothing if they were refused. -/
def andThen (k : State → List (BufId × Bytes) → Exec (State × Result)) :
    State × Result → Exec (State × Result)
  | (s, r) => if r.status = .ok then k s r.bytes else .ok (s, r)

theorem unprotectLoop_append {L : Lib} {A : Allocator} {a : Record.CreateArgs}
    (hA : AllocOk A) {f : Nat → Record.Fault} (hf : ∀ j, (f j).evp = .none)
    (recs : List (Bytes × Bytes)) (hw : ∀ r ∈ recs, Spec.Whole r.1 r.2 ∧ 17 ≤ r.2.length)
    (t : Bytes) (i : Nat) (s : State) (vs ws : List Iovec) (on on' : Nat)
    (done : List (BufId × Bytes)) (F G H : Nat)
    (hr : Record.Reach L a s.conn s.evs) (hc : Cursor vs on) (hc' : Cursor ws on')
    (hv : ahead vs on = bytesOf recs ++ t) (hx : ahead ws on' = bytesOf recs)
    (hF : (ahead vs on).length < F) (hG : (ahead ws on').length < G) (hH : t.length < H) :
    unprotectLoop L A f F i s vs on (ahead vs on).length done =
      unprotectLoop L A f G i s ws on' (ahead ws on').length done >>=
        andThen (fun s1 bufs => unprotectLoop L A f H (i + recs.length) s1 (one t) 0 t.length bufs) := by
  obtain ⟨su, hs⟩ := hr.suite
  induction recs generalizing i s vs ws on on' done F G with
  | nil =>
    simp only [bytesOf_nil, List.nil_append] at hv hx
    have h22 : s.conn.recordOverhead = 22 := Record.recordOverhead_eq _
    have : unprotectLoop L A f G i s ws on' (ahead ws on').length done = .ok (s, ⟨.ok, done⟩) := by
      obtain ⟨g, rfl⟩ : ∃ g, G = g + 1 := ⟨G - 1, by omega⟩
      unfold unprotectLoop
      rw [if_neg (by rw [hx, h22]; simp)]
      rfl
    rw [this]
    simp only [exec_bind_ok, andThen, if_true, List.length_nil, Nat.add_zero]
    have e := unprotectLoop_flat (f := f) hA hf F i s vs (one t) on 0 _ done hr hc
      (cursor_start (one_bufs t)) (by rw [hv]; simp [ahead, flat_one]) rfl
    rw [e, hv]
    exact unprotectLoop_fuel L A f F H i s _ _ _ _ (by rw [← hv]; exact hF) hH
  | cons rec recs ih =>
    obtain ⟨hd, payload⟩ := rec
    obtain ⟨hwh, h17⟩ := hw (hd, payload) (by simp)
    simp only at hwh h17
    have h22 : s.conn.recordOverhead = 22 := Record.recordOverhead_eq _
    have hdl : hd.length = 5 := by rw [hwh.header]; rfl
    simp only [bytesOf_cons, List.append_assoc] at hv hx
    have f1 : Spec.firstRecord (ahead vs on) = some (hd, payload, bytesOf recs ++ t) := by
      rw [hv, ← List.append_assoc]; exact firstRecord_whole hwh _
    have f2 : Spec.firstRecord (ahead ws on') = some (hd, payload, bytesOf recs) := by
      rw [hx, ← List.append_assoc]; exact firstRecord_whole hwh _
    have l1 : (ahead vs on).length = 5 + payload.length + (bytesOf recs ++ t).length := by
      rw [hv]; simp [hdl]; omega
    have l2 : (ahead ws on').length = 5 + payload.length + (bytesOf recs).length := by
      rw [hx]; simp [hdl]; omega
    obtain ⟨F, rfl⟩ : ∃ g, F = g + 1 := ⟨F - 1, by omega⟩
    obtain ⟨G, rfl⟩ : ∃ g, G = g + 1 := ⟨G - 1, by omega⟩
    rcases walk_spec vs on hc with ⟨hno, _⟩ | ⟨hd1, payload1, rest, vs1, on1, ps, vs', on2, hfr, k1, k2, k3, k4, k5, k6, k7⟩
    · rw [f1] at hno; cases hno
    rw [f1] at hfr
    simp only [Option.some.injEq, Prod.mk.injEq] at hfr
    obtain ⟨rfl, rfl, rfl⟩ := hfr
    rcases walk_spec ws on' hc' with ⟨hno, _⟩ | ⟨hd1', payload', rest', ws1, on1', qs, ws', on2', hfr', m1, m2, m3, m4, m5, m6, m7⟩
    · rw [f2] at hno; cases hno
    rw [f2] at hfr'
    simp only [Option.some.injEq, Prod.mk.injEq] at hfr'
    obtain ⟨rfl, rfl, rfl⟩ := hfr'
    obtain ⟨d, hd1, hd2⟩ := hA s.next payload.length
    have hgood := (hr.good hs).1
    rw [k3] at k2 m2
    have hfl : ∀ ps, flat ps = payload → AllWF ps →
        Record.unprotect L (f i) s.conn (.buf hd) ps (.buf d) =
          Record.openFlat L (f i).key s.conn (.buf hd) payload (.buf d) := by
      intro ps h1 h2
      rw [Record.unprotect_flat L (f i) s.conn (.buf hd) ps (.buf d) hgood.nonce h2 trivial (hf i)
        (by rw [h2.totalLen_eq, h1]; simp only [Iovec.len, hd2]; omega), h1]
    generalize hk : (fun (s1 : State) (bufs : List (BufId × Bytes)) => unprotectLoop L A f H
      (i + ((hd, payload) :: recs).length) s1 (one t) 0 t.length bufs) = k
    unfold unprotectLoop
    rw [if_pos (by omega), if_pos (by omega)]
    simp only [k1, m1, exec_bind_ok, k3, k2, m2, State.alloc, hd1, State.crypterUnprotect,
      hfl ps k4 k5, hfl qs m4 m5]
    cases hu : Record.openFlat L (f i).key s.conn (.buf hd) payload (.buf d) with
    | error e => rfl
    | ok x =>
      obtain ⟨c', r⟩ := x
      simp only [exec_bind_ok, exec_pure]
      by_cases hcode : r.code = .ok
      case neg =>
        rw [if_pos hcode, if_pos hcode]
        simp only [exec_bind_ok, andThen]
        rw [if_neg (fun h => hcode (convertCode_ok.1 h))]
      rw [if_neg (not_not_intro hcode), if_neg (not_not_intro hcode)]
      rw [subSize_ok (by simp only [kHeaderLength]; omega), subSize_ok (by simp only [kHeaderLength]; omega)]
      simp only [exec_bind_ok, kHeaderLength]
      have r1 : (ahead vs on).length - (5 + payload.length) = (ahead vs' on2).length := by
        rw [k7, l1]; omega
      have r2 : (ahead ws on').length - (5 + payload.length) = (ahead ws' on2').length := by
        rw [m7, l2]; omega
      rw [r1, r2]
      have hu' := hfl ps k4 k5
      rw [hu] at hu'
      have hrn : Record.Reach L a c' (s.evs ++ [.opened r]) :=
        hr.step (op := .unprotect (f i) (.buf hd) ps (.buf d)) (by simp [Record.step, hu'])
      have := ih (fun r hr => hw r (by simp [hr])) (i + 1)
        { s with
          next := s.next + 1
          mem := s.mem ++ [.alloc (.heap s.next) payload.length]
          conn := c'
          evs := s.evs ++ [.opened r] }
        vs' ws' on2 on2' (done ++ [(.heap s.next, r.out.bytes.take r.written)]) F G hrn k6 m6 k7 m7
        (by rw [k7]; omega) (by rw [m7]; omega)
      rw [show i + 1 + recs.length = i + ((hd, payload) :: recs).length by simp; omega, hk] at this
      exact this

/-- Failures of the library are numbered from the start of the call. -/
theorem unprotectLoop_shift (L : Lib) (A : Allocator) (f : Nat → Record.Fault) (F i k : Nat)
    (s : State) (vs : List Iovec) (on rem : Nat) (done : List (BufId × Bytes)) :
    unprotectLoop L A f F (k + i) s vs on rem done =
      unprotectLoop L A (fun j => f (k + j)) F i s vs on rem done := by
  induction F generalizing i s vs on rem done with
  | zero => rfl
  | succ F ih =>
    unfold unprotectLoop
    by_cases hge : rem ≥ s.conn.recordOverhead
    case neg => rw [if_neg hge, if_neg hge]
    rw [if_pos hge, if_pos hge]
    congr 1
    funext x
    rcases x with e | ⟨hd, vs1, on1⟩
    · rfl
    simp only
    congr 1
    funext x
    rcases x with e | ⟨ps, vs2, on2⟩
    · rfl
    simp only
    congr 1
    funext x
    obtain ⟨s1, r⟩ := x
    simp only
    split
    · rfl
    · congr 1
      funext rem
      exact ih (i + 1) ..

/-- What a call does that already holds the buffers `pre`, against one that holds none. -/
def Holding (pre : List (BufId × Bytes)) (x y : Exec (State × Result)) : Prop :=
  (∃ e, x = .error e ∧ y = .error e) ∨
  (∃ s bufs, x = .ok (s, ⟨.ok, bufs⟩) ∧ y = .ok (s, ⟨.ok, pre ++ bufs⟩)) ∨
  ∃ s st m, st ≠ .ok ∧ x = .ok (s, ⟨st, []⟩) ∧ y = .ok ({ s with mem := m }, ⟨st, []⟩) ∧
    (st = .failedPrecondition ∧ m = s.mem ∨
      m.Perm (s.mem ++ pre.map fun b => MemEvent.destroy b.1 b.2.length))

theorem unprotectLoop_holding (L : Lib) (A : Allocator) (f : Nat → Record.Fault) (F i : Nat)
    (s : State) (vs : List Iovec) (on rem : Nat) (pre done : List (BufId × Bytes)) :
    Holding pre (unprotectLoop L A f F i s vs on rem done)
      (unprotectLoop L A f F i s vs on rem (pre ++ done)) := by
  induction F generalizing i s vs on rem done with
  | zero => exact Or.inl ⟨_, rfl, rfl⟩
  | succ F ih =>
    unfold unprotectLoop
    by_cases hge : rem ≥ s.conn.recordOverhead
    case neg =>
      rw [if_neg hge, if_neg hge]
      exact Or.inr (Or.inl ⟨s, done, rfl, rfl⟩)
    rw [if_pos hge, if_pos hge]
    cases hx : readHeader kHeaderLength 0 vs on with
    | error e => exact Or.inl ⟨e, rfl, rfl⟩
    | ok x =>
      simp only [exec_bind_ok, exec_pure]
      cases x with
      | error e =>
        have := readHeader_status hx
        subst this
        exact Or.inr (Or.inr ⟨s, _, s.mem, by decide, rfl, rfl, Or.inl ⟨rfl, rfl⟩⟩)
      | ok x =>
        obtain ⟨hd, vs1, on1⟩ := x
        simp only
        cases hy : isolate vs1 on1 (payloadSize hd) with
        | error e => exact Or.inl ⟨e, rfl, rfl⟩
        | ok x =>
          simp only [exec_bind_ok]
          cases x with
          | error e =>
            have := isolate_status hy
            subst this
            exact Or.inr (Or.inr ⟨s, _, s.mem, by decide, rfl, rfl, Or.inl ⟨rfl, rfl⟩⟩)
          | ok x =>
            obtain ⟨ps, vs2, on2⟩ := x
            simp only [State.alloc]
            generalize State.crypterUnprotect L _ _ _ _ _ = u
            cases u with
            | error e => exact Or.inl ⟨e, rfl, rfl⟩
            | ok x =>
              obtain ⟨s1, r⟩ := x
              simp only [exec_bind_ok]
              by_cases hc : r.code = .ok
              case neg =>
                rw [if_pos hc, if_pos hc]
                refine Or.inr (Or.inr ⟨_, _,
                  (s1.mem ++ [.destroy (.heap s.next) (A s.next (payloadSize hd)).len]) ++
                    (pre ++ done).map fun b => MemEvent.destroy b.1 b.2.length,
                  fun h => hc (convertCode_ok.1 h), rfl, ?_, Or.inr ?_⟩)
                · simp only [destroyAll_eq, State.destroy]
                · simp only [destroyAll_eq, State.destroy, List.map_append, List.append_assoc]
                  refine List.Perm.append_left _ (List.Perm.append_left _ ?_)
                  exact List.perm_append_comm
              rw [if_neg (not_not_intro hc), if_neg (not_not_intro hc)]
              cases subSize rem (kHeaderLength + payloadSize hd) with
              | error e => exact Or.inl ⟨e, rfl, rfl⟩
              | ok rem' =>
                simp only [exec_bind_ok]
                have := ih (i + 1) s1 vs2 on2 rem' (done ++ [(.heap s.next, r.out.bytes.take r.written)])
                rw [← List.append_assoc] at this
                exact this

/-- `Unprotect` of records and what follows them. -/
theorem unprotect_append {L : Lib} {A : Allocator} {a : Record.CreateArgs}
    (hA : AllocOk A) {f : Nat → Record.Fault} (hf : ∀ j, (f j).evp = .none)
    {recs : List (Bytes × Bytes)} (hne : recs ≠ [])
    (hw : ∀ r ∈ recs, Spec.Whole r.1 r.2 ∧ 17 ≤ r.2.length)
    (t : Bytes) {s : State} {vs ws : List Iovec}
    (hr : Record.Reach L a s.conn s.evs) (hc : NonEmptyBufs vs) (hc' : NonEmptyBufs ws)
    (hv : flat vs = bytesOf recs ++ t) (hx : flat ws = bytesOf recs) :
    unprotect L A f s vs = unprotect L A f s ws >>=
        andThen (fun s1 bufs => unprotectLoop L A (fun j => f (recs.length + j)) (t.length + 1) 0 s1
          (one t) 0 t.length bufs) := by
  have h22 : s.conn.recordOverhead = 22 := Record.recordOverhead_eq _
  have hl : 22 ≤ (bytesOf recs).length := by
    cases recs with
    | nil => exact absurd rfl hne
    | cons r recs =>
      obtain ⟨h1, h2⟩ := hw r (by simp)
      have : r.1.length = 5 := by rw [h1.header]; rfl
      rw [bytesOf_cons]
      simp
      omega
  have l1 : totalLen vs = (ahead vs 0).length := by rw [hc.wf.totalLen_eq]; simp [ahead]
  have l2 : totalLen ws = (ahead ws 0).length := by rw [hc'.wf.totalLen_eq]; simp [ahead]
  have a1 : ahead vs 0 = bytesOf recs ++ t := by simp [ahead, hv]
  have a2 : ahead ws 0 = bytesOf recs := by simp [ahead, hx]
  unfold unprotect
  simp only
  rw [l1, l2, if_neg (by rw [a1, h22, List.length_append]; omega), if_neg (by rw [a2, h22]; omega)]
  rw [unprotectLoop_append hA hf recs hw t 0 s vs ws 0 0 []
    ((ahead vs 0).length + 1) ((ahead ws 0).length + 1) (t.length + 1) hr (cursor_start hc)
    (cursor_start hc') a1 a2 (by omega) (by omega) (by omega)]
  congr 2
  funext s1 bufs
  rw [show 0 + recs.length = recs.length + 0 by omega, unprotectLoop_shift]

end S2A.Frame
