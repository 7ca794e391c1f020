import Verif.Lemmas.Adversary
import Verif.Lemmas.FrameReach
namespace S2A.Frame
open HalfConn (exec_bind_eq_ok)
open Spec (AllocOk sentData deliveredData)

/-- The calls on the crypter between two states of a protector. -/
structure Sim (L : Lib) (s s' : State) (ops : List Record.Op) (evs : List Record.Event) : Prop where
  run : Record.run L s.conn ops = .ok (s'.conn, evs)
  evs : s'.evs = s.evs ++ evs
  valid : ∀ op ∈ ops, Spec.ValidArgs op ∧ Spec.DataOnly op

theorem Sim.refl {L : Lib} (s : State) : Sim L s s [] [] :=
  ⟨rfl, by simp, fun _ h => absurd h List.not_mem_nil⟩

theorem Sim.trans {L : Lib} {s1 s2 s3 : State} {o1 e1 o2 e2} (h : Sim L s1 s2 o1 e1)
    (h' : Sim L s2 s3 o2 e2) : Sim L s1 s3 (o1 ++ o2) (e1 ++ e2) :=
  ⟨Record.run_append_ok h.run h'.run, by rw [h'.evs, h.evs, List.append_assoc],
    fun op ho => (List.mem_append.1 ho).elim (h.valid op) (h'.valid op)⟩

theorem run_length {L : Lib} {ops c c' evs} (h : Record.run L c ops = .ok (c', evs)) :
    ops.length = evs.length := by
  induction ops generalizing c evs with
  | nil => cases h; rfl
  | cons op ops ih =>
    obtain ⟨c1, ev, es, h1, h2, h3⟩ := Record.run_cons h
    subst h3
    simp [ih h2]

theorem sentData_cons (op : Record.Op) (ev : Record.Event) (ops evs) :
    sentData (op :: ops) (ev :: evs) = sentData [op] [ev] ++ sentData ops evs := by
  cases op with
  | protect f rt pt rec =>
    cases rt <;> cases ev <;> simp [sentData]
    split <;> rfl
  | _ => cases ev <;> simp [sentData]

theorem sentData_append {o1 o2 : List Record.Op} {e1 e2 : List Record.Event}
    (h : o1.length = e1.length) :
    sentData (o1 ++ o2) (e1 ++ e2) = sentData o1 e1 ++ sentData o2 e2 := by
  induction o1 generalizing e1 with
  | nil => cases e1 with
    | nil => simp [sentData]
    | cons _ _ => cases h
  | cons op o1 ih =>
    cases e1 with
    | nil => cases h
    | cons ev e1 =>
      simp only [List.cons_append]
      rw [sentData_cons, sentData_cons op ev o1 e1, ih (by simpa using h), List.append_assoc]

theorem deliveredData_append (e1 e2 : List Record.Event) :
    deliveredData (e1 ++ e2) = deliveredData e1 ++ deliveredData e2 := by
  induction e1 with
  | nil => rfl
  | cons ev e1 ih =>
    cases ev <;> simp only [List.cons_append, deliveredData, ih]
    split <;> rfl

/-! ### Protect -/

theorem protectLoop_sent {L : Lib} {f id fuel i s vs on first rem idx out s' st o}
    (hc : CurLe vs on) (hrem : rem + on = totalLen vs) (hw : AllWF vs)
    (h : protectLoop L f id fuel i s vs on first rem idx out = .ok (s', st, o)) :
    ∃ ops evs, Sim L s s' ops evs ∧ (st = .ok → (sentData ops evs).flatten = ahead vs on) ∧
      ∀ r, .opened r ∉ evs := by
  induction fuel generalizing i s vs on first rem idx out with
  | zero => cases h
  | succ fuel ih =>
    unfold protectLoop at h
    have hal : (ahead vs on).length = rem := by
      have := hw.totalLen_eq
      simp [ahead]; omega
    split at h
    case isFalse hgo =>
      cases h
      refine ⟨[], [], .refl _, fun _ => ?_, by simp⟩
      have : rem = 0 := by simp at hgo; exact hgo.2
      rw [this] at hal
      rw [List.eq_nil_of_length_eq_zero hal]
      rfl
    simp only [exec_bind_eq_ok] at h
    have hle : (if rem < kMaxPlaintext then rem else kMaxPlaintext) ≤ rem := by
      simp only [kMaxPlaintext]; split <;> omega
    generalize (if rem < kMaxPlaintext then rem else kMaxPlaintext) = n at h hle
    obtain ⟨⟨ps, vs', on'⟩, h0, room, _, slot, _, ⟨s1, r⟩, h1, h2⟩ := h
    obtain ⟨ps', vs'', on'', k1, k2, k3, k4, k5⟩ := collect_spec vs on n hc (by omega)
    rw [h0] at k1
    cases k1
    obtain ⟨w1, w2, w3, w4⟩ := k5 hw
    simp only [State.crypterProtect, exec_bind_eq_ok] at h1
    obtain ⟨⟨c, r'⟩, h1, h3⟩ := h1
    cases h3
    simp only at h2
    have hsim : ∀ m : List MemEvent, Sim L s
        { s with conn := c, evs := s.evs ++ [.sealed r'], mem := m }
        [.protect (f i) .applicationData ps slot] [.sealed r'] := fun m =>
      ⟨by simp [Record.run, Record.step, h1], rfl, fun op ho => by
        rw [List.mem_singleton.1 ho]; exact ⟨trivial, rfl⟩⟩
    split at h2
    · next hne =>
      cases h2
      exact ⟨_, _, hsim _, fun hk => absurd (convertCode_ok.1 hk) hne, by simp⟩
    next hok =>
    split at h2
    · cases h2
      exact ⟨_, _, hsim _, (fun hk => by cases hk), by simp⟩
    · obtain ⟨ops, evs, q1, q2, q3⟩ := ih k3 (by omega) w2 h2
      refine ⟨_, _, (hsim s.mem).trans q1, fun hk => ?_, by simpa using q3⟩
      have hok : r'.code = .ok := Classical.not_not.1 hok
      rw [sentData_append rfl, List.flatten_append, q2 hk, w4]
      simp only [sentData, hok, if_true, List.flatten_cons, List.flatten_nil, List.append_nil, w3]
      exact List.take_append_drop _ _

/-! ### Unprotect -/

theorem isolate_wf {vs : List Iovec} {on rem ps vs' on'}
    (h : isolate vs on rem = .ok (.ok (ps, vs', on'))) : AllWF ps := by
  induction vs generalizing on rem ps vs' on' with
  | nil =>
    cases rem with
    | zero => cases h; exact allWF_nil
    | succ n => cases h
  | cons v vs ih =>
    cases rem with
    | zero => cases h; exact allWF_nil
    | succ n =>
      cases v with
      | null k => cases h
      | buf d =>
        simp only [isolate, exec_bind_eq_ok] at h
        obtain ⟨left, _, piece, hp, h⟩ := h
        have hpw : piece.WF := by
          simp only [Iovec.slice] at hp
          split at hp
          · cases hp; trivial
          · cases hp
        split at h
        · simp only [exec_bind_eq_ok] at h
          obtain ⟨x, hx, h⟩ := h
          split at h
          · cases h
          · cases h
            exact AllWF.cons hpw (ih hx)
        · cases h
          exact AllWF.cons hpw allWF_nil

theorem isolate_error {vs : List Iovec} {on rem e}
    (h : isolate vs on rem = .ok (.error e)) : e ≠ .ok := by
  induction vs generalizing on rem with
  | nil =>
    cases rem with
    | zero => cases h
    | succ n => cases h; simp
  | cons v vs ih =>
    cases rem with
    | zero => cases h
    | succ n =>
      cases v with
      | null k => cases h
      | buf d =>
        simp only [isolate, exec_bind_eq_ok] at h
        obtain ⟨left, _, piece, hp, h⟩ := h
        split at h
        · simp only [exec_bind_eq_ok] at h
          obtain ⟨x, hx, h⟩ := h
          split at h
          · cases h; exact ih hx
          · cases h
        · cases h

theorem readHeader_error {k i : Nat} {vs : List Iovec} {on e}
    (h : readHeader k i vs on = .ok (.error e)) : e ≠ .ok := by
  induction k generalizing i vs on with
  | zero => cases h
  | succ k ih =>
    cases vs with
    | nil => cases h; simp
    | cons v vs =>
      cases v with
      | null n => cases h
      | buf d =>
        simp only [readHeader, exec_bind_eq_ok] at h
        obtain ⟨b, _, h⟩ := h
        split at h
        · cases h; simp
        · simp only [exec_bind_eq_ok] at h
          obtain ⟨x, hx, h⟩ := h
          split at h
          · cases h; exact ih hx
          · cases h

theorem unprotectLoop_received {L : Lib} {A : Allocator} (hA : AllocOk A)
    {f fuel i s vs on rem done s' res}
    (h : unprotectLoop L A f fuel i s vs on rem done = .ok (s', res)) :
    ∃ ops evs, Sim L s s' ops evs ∧ sentData ops evs = [] ∧
      (res.status = .ok → res.bytes.map (·.2) = done.map (·.2) ++ deliveredData evs ∧
        ∀ r, .opened r ∈ evs → r.code = .ok) := by
  induction fuel generalizing i s vs on rem done with
  | zero => cases h
  | succ fuel ih =>
    unfold unprotectLoop at h
    split at h
    case isFalse =>
      cases h
      exact ⟨[], [], .refl _, rfl, fun _ => ⟨by simp [deliveredData], by simp⟩⟩
    simp only [exec_bind_eq_ok] at h
    obtain ⟨x, hx, h⟩ := h
    split at h
    · cases h
      exact ⟨[], [], .refl _, rfl, fun hk => absurd hk (readHeader_error hx)⟩
    simp only [exec_bind_eq_ok] at h
    obtain ⟨x, hi, h⟩ := h
    split at h
    · cases h
      exact ⟨[], [], .refl _, rfl, fun hk => absurd hk (isolate_error hi)⟩
    rename_i hdr vs1 on1 y ps vs2 on2
    simp only [exec_bind_eq_ok, State.alloc, State.crypterUnprotect] at h
    obtain ⟨⟨s1, r⟩, ⟨⟨c, r'⟩, h1, h3⟩, h2⟩ := h
    cases h3
    have hpw := isolate_wf hi
    have haw : ∀ j n, (A j n).WF := fun j n => by
      obtain ⟨ab, ha1, _⟩ := hA j n
      rw [ha1]; trivial
    simp only at h1 h2
    split at h2
    · next hne =>
      cases h2
      refine ⟨[.unprotect (f i) (.buf hdr) ps (A s.next (payloadSize hdr))], [.opened r'], ⟨?_, ?_, fun op ho => ?_⟩, rfl,
        fun hk => absurd (convertCode_ok.1 hk) hne⟩
      case refine_1 =>
        rw [destroyAll_eq]
        simp only [Record.run, Record.step, State.destroy]
        rw [h1]
        rfl
      case refine_2 => rw [destroyAll_eq]; rfl
      case refine_3 => rw [List.mem_singleton.1 ho]; exact ⟨⟨hpw, haw _ _⟩, trivial⟩
    · next hok =>
      have hok : r'.code = .ok := Classical.not_not.1 hok
      simp only [exec_bind_eq_ok] at h2
      obtain ⟨rem', _, h2⟩ := h2
      obtain ⟨ops, evs, q1, q2, q3⟩ := ih h2
      refine ⟨.unprotect (f i) (.buf hdr) ps (A s.next (payloadSize hdr)) :: ops, .opened r' :: evs, ⟨?_, ?_, fun op ho => ?_⟩, ?_, fun hk => ⟨?_, fun r hr => ?_⟩⟩
      case refine_1 => 
        simp only [Record.run, Record.step]
        rw [h1]
        simp only [exec_bind_ok, exec_pure]
        rw [q1.run]
        rfl
      case refine_2 => rw [q1.evs]; simp
      case refine_3 =>
        rcases List.mem_cons.1 ho with rfl | ho
        · exact ⟨⟨hpw, haw _ _⟩, trivial⟩
        · exact q1.valid op ho
      case refine_4 => exact q2
      case refine_5 =>
        rw [(q3 hk).1]
        simp [deliveredData, hok]
      case refine_6 =>
        rcases List.mem_cons.1 hr with e | hr
        · cases e; exact hok
        · exact (q3 hk).2 r hr

theorem unprotectInto_received {L : Lib} {f s vs out s' st n o} (ho : out.WF)
    (h : unprotectInto L f s vs out = .ok (s', st, n, o)) :
    ∃ ops evs, Sim L s s' ops evs ∧ sentData ops evs = [] ∧
      (st = .ok → o.bytes.take n = (deliveredData evs).flatten ∧
        ∀ r, .opened r ∈ evs → r.code = .ok) := by
  unfold unprotectInto at h
  split at h
  · cases h; exact ⟨[], [], .refl _, rfl, fun hk => by cases hk⟩
  simp only [exec_bind_eq_ok] at h
  obtain ⟨x, hx, h⟩ := h
  split at h
  · cases h; exact ⟨[], [], .refl _, rfl, fun hk => absurd hk (readHeader_error hx)⟩
  simp only [exec_bind_eq_ok] at h
  obtain ⟨x, hi, h⟩ := h
  split at h
  · cases h; exact ⟨[], [], .refl _, rfl, fun hk => absurd hk (isolate_error hi)⟩
  simp only [exec_bind_eq_ok, State.crypterUnprotect] at h
  obtain ⟨⟨s1, r⟩, ⟨⟨c, r'⟩, h1, h3⟩, h2⟩ := h
  cases h3
  have hpw := isolate_wf hi
  have hsim : Sim L s { s with conn := c, evs := s.evs ++ [.opened r'] } [.unprotect f _ _ out]
      [.opened r'] :=
    ⟨by simp only [Record.run, Record.step]; rw [h1]; rfl, rfl, fun op ho' => by
      rw [List.mem_singleton.1 ho']; exact ⟨⟨hpw, ho⟩, trivial⟩⟩
  simp only at h2
  split at h2
  · next hne => cases h2; exact ⟨_, _, hsim, rfl, fun hk => absurd (convertCode_ok.1 hk) hne⟩
  · next hok =>
    have hok : r'.code = .ok := Classical.not_not.1 hok
    cases h2
    exact ⟨_, _, hsim, rfl, fun _ => ⟨by simp [deliveredData, hok], fun r hr => by
      cases List.mem_singleton.1 hr; exact hok⟩⟩

/-! ### Histories -/

theorem step_sim {L : Lib} {A : Allocator} (hA : AllocOk A) {s op s' ev}
    (hv : Spec.ValidFrameArgs op) (h : step L A s op = .ok (s', ev)) :
    ∃ rops revs, Sim L s s' rops revs ∧
      (Spec.SendsOk [op] [ev] → (sentData rops revs).flatten = Spec.sentBytes [op]) ∧
      (Spec.ReceivesOk [op] [ev] →
        (deliveredData revs).flatten = Spec.receivedBytes [op] [ev] ∧
          ∀ r, .opened r ∈ revs → r.code = .ok) := by
  have nodel : ∀ evs : List Record.Event, (∀ r, .opened r ∉ evs) → deliveredData evs = [] := by
    intro evs h
    induction evs with
    | nil => rfl
    | cons ev evs ih =>
      have ih := ih fun r hr => h r (List.mem_cons_of_mem _ hr)
      cases ev with
      | opened r => exact absurd List.mem_cons_self (h r)
      | _ => exact ih
  cases op with
  | protect f vs =>
    simp only [step, protect, State.alloc, protectInto, exec_bind_eq_ok] at h
    obtain ⟨⟨s1, r⟩, ⟨⟨s2, st, o⟩, h1, h2⟩, h3⟩ := h
    cases h3
    obtain ⟨ops, evs, q1, q2, q3⟩ := protectLoop_sent (curLe_start vs) (Nat.add_zero _) hv h1
    have : ∀ m : List MemEvent, Sim L s { s2 with mem := m } ops evs :=
      fun m => ⟨q1.run, q1.evs, q1.valid⟩
    simp only at h2
    split at h2
    · next hne =>
      cases h2
      refine ⟨ops, evs, this _, fun hk => absurd hk.1 hne, fun _ => ⟨?_, fun r hr => absurd hr (q3 r)⟩⟩
      rw [nodel evs q3]; rfl
    · next hok =>
      cases h2
      refine ⟨ops, evs, this _, fun hk => ?_, fun _ => ⟨?_, fun r hr => absurd hr (q3 r)⟩⟩
      · rw [q2 (Classical.not_not.1 hok)]; simp [ahead, Spec.sentBytes]
      · rw [nodel evs q3]; rfl
  | protectInto f vs out =>
    simp only [step, protectInto, exec_bind_eq_ok] at h
    obtain ⟨⟨s2, st, o⟩, h1, h2⟩ := h
    cases h2
    obtain ⟨ops, evs, q1, q2, q3⟩ := protectLoop_sent (curLe_start vs) (Nat.add_zero _) hv h1
    refine ⟨ops, evs, q1, fun hk => ?_, fun _ => ⟨?_, fun r hr => absurd hr (q3 r)⟩⟩
    · rw [q2 hk.1]; simp [ahead, Spec.sentBytes]
    · rw [nodel evs q3]; rfl
  | unprotect f vs =>
    simp only [step, exec_bind_eq_ok] at h
    obtain ⟨⟨s1, r⟩, h1, h2⟩ := h
    cases h2
    unfold unprotect at h1
    simp only at h1
    split at h1
    · cases h1
      exact ⟨[], [], .refl _, fun _ => rfl, fun hk => by cases hk.1⟩
    · obtain ⟨ops, evs, q1, q2, q3⟩ := unprotectLoop_received hA h1
      refine ⟨ops, evs, q1, fun _ => by rw [q2]; rfl, fun hk => ?_⟩
      obtain ⟨e1, e2⟩ := q3 hk.1
      refine ⟨?_, e2⟩
      simp only [Spec.receivedBytes, e1]
      simp
  | unprotectInto f vs out =>
    simp only [step, exec_bind_eq_ok] at h
    obtain ⟨⟨s1, st, n, o⟩, h1, h2⟩ := h
    cases h2
    obtain ⟨ops, evs, q1, q2, q3⟩ := unprotectInto_received hv h1
    refine ⟨ops, evs, q1, fun _ => by rw [q2]; rfl, fun hk => ?_⟩
    obtain ⟨e1, e2⟩ := q3 hk.1
    refine ⟨?_, e2⟩
    simp only [Spec.receivedBytes, e1]
    simp

theorem sendsOk_cons {op ops ev evs} (h : Spec.SendsOk (op :: ops) (ev :: evs)) :
    Spec.SendsOk [op] [ev] ∧ Spec.SendsOk ops evs := by
  cases op <;> simp [Spec.SendsOk] at h ⊢ <;> exact h

theorem receivesOk_cons {op ops ev evs} (h : Spec.ReceivesOk (op :: ops) (ev :: evs)) :
    Spec.ReceivesOk [op] [ev] ∧ Spec.ReceivesOk ops evs := by
  cases op <;> simp [Spec.ReceivesOk] at h ⊢ <;> exact h

theorem sentBytes_cons (op ops) :
    Spec.sentBytes (op :: ops) = Spec.sentBytes [op] ++ Spec.sentBytes ops := by
  cases op <;> simp [Spec.sentBytes]

theorem receivedBytes_cons (op ops ev evs) : Spec.receivedBytes (op :: ops) (ev :: evs) =
    Spec.receivedBytes [op] [ev] ++ Spec.receivedBytes ops evs := by
  cases op <;> cases ev <;> simp [Spec.receivedBytes]

theorem run_sim {L : Lib} {A : Allocator} (hA : AllocOk A) {s ops s' evs}
    (hv : ∀ op ∈ ops, Spec.ValidFrameArgs op) (h : run L A s ops = .ok (s', evs)) :
    ∃ rops revs, Sim L s s' rops revs ∧
      (Spec.SendsOk ops evs → (sentData rops revs).flatten = Spec.sentBytes ops) ∧
      (Spec.ReceivesOk ops evs →
        (deliveredData revs).flatten = Spec.receivedBytes ops evs ∧
          ∀ r, .opened r ∈ revs → r.code = .ok) := by
  induction ops generalizing s evs with
  | nil => cases h; exact ⟨[], [], .refl _, fun _ => rfl, fun _ => ⟨rfl, by simp⟩⟩
  | cons op ops ih =>
    simp only [run, exec_bind_eq_ok] at h
    obtain ⟨⟨s1, e⟩, h1, ⟨s2, es⟩, h2, h3⟩ := h
    cases h3
    obtain ⟨o1, e1, a1, a2, a3⟩ := step_sim hA (hv _ List.mem_cons_self) h1
    obtain ⟨o2, e2, b1, b2, b3⟩ := ih (fun o ho => hv o (List.mem_cons_of_mem _ ho)) h2
    refine ⟨o1 ++ o2, e1 ++ e2, a1.trans b1, fun hk => ?_, fun hk => ?_⟩
    · obtain ⟨k1, k2⟩ := sendsOk_cons hk
      rw [sentData_append (run_length a1.run), List.flatten_append, a2 k1, b2 k2, ← sentBytes_cons]
    · obtain ⟨k1, k2⟩ := receivesOk_cons hk
      obtain ⟨x1, x2⟩ := a3 k1
      obtain ⟨y1, y2⟩ := b3 k2
      refine ⟨?_, fun r hr => (List.mem_append.1 hr).elim (x2 r) (y2 r)⟩
      rw [deliveredData_append, List.flatten_append, x1, y1, ← receivedBytes_cons]

end S2A.Frame
