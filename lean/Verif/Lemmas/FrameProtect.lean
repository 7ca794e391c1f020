import Verif.Lemmas.FrameWalk
import Verif.Lemmas.Record
/-
The loop of `Protect`.
-/
namespace S2A.Frame
open HalfConn (At Good bump blocked)
open Spec (recordCount fragments dataRecords messageRecords)

theorem recordCount_short {n : Nat} (h : n ≤ 16384) : recordCount n = 1 := by
  unfold recordCount; omega

theorem recordCount_long {n : Nat} (h : 16384 < n) :
    recordCount n = recordCount (n - 16384) + 1 := by
  unfold recordCount; omega

theorem recordCount_pos (n : Nat) : 1 ≤ recordCount n := by unfold recordCount; omega

theorem fragments_short {b : Bytes} (h : b.length ≤ 16384) : fragments b = [b] := by
  unfold fragments
  rw [recordCount_short h]
  simp [List.range_succ, List.take_of_length_le h]

theorem fragments_long {b : Bytes} (h : 16384 < b.length) :
    fragments b = b.take 16384 :: fragments (b.drop 16384) := by
  unfold fragments
  rw [recordCount_long h, List.range_succ_eq_map, List.map_cons, List.map_map, List.length_drop]
  congr 1
  apply List.map_congr_left
  intro i _
  simp only [Function.comp, List.drop_drop, Nat.succ_eq_add_one]
  congr 2
  omega

theorem numberBytesToProtect_eq (s : State) (n : Nat) :
    numberBytesToProtect s n = n + 22 * recordCount n := by
  unfold numberBytesToProtect recordCount
  simp only [Record.recordOverhead_eq, kMaxPlaintext]
  split
  · next h =>
    rcases h with h | h <;> omega
  · next h => omega

theorem sealRecord_length (L : Lib) (alg key nonce inner) :
    (Spec.sealRecord L alg key nonce inner).length = inner.length + 21 := by
  simp [Spec.sealRecord, Aead.aeadSeal_length]
  omega

theorem dirProtect_length (L : Lib) (d : Spec.Dir) (inner : Bytes) :
    (d.protect L inner).length = inner.length + 21 := sealRecord_length ..

theorem messageRecords_length (L : Lib) (d : Spec.Dir) (b : Bytes) :
    (messageRecords L d b).flatten.length = b.length + 22 * recordCount b.length := by
  have : ∀ k b, b.length ≤ k → ∀ d, (messageRecords L d b).flatten.length =
      b.length + 22 * recordCount b.length := by
    intro k
    induction k with
    | zero =>
      intro b hb d
      unfold messageRecords
      rw [fragments_short (by omega), recordCount_short (by omega)]
      simp [dataRecords, dirProtect_length, Spec.innerPlaintext]
    | succ k ih =>
      intro b hb d
      by_cases h : b.length ≤ 16384
      · unfold messageRecords
        rw [fragments_short (by omega), recordCount_short (by omega)]
        simp [dataRecords, dirProtect_length, Spec.innerPlaintext]
      · have h' : 16384 < b.length := by omega
        unfold messageRecords
        rw [fragments_long h', recordCount_long h']
        have := ih (b.drop 16384) (by simp; omega) d.next
        simp only [messageRecords] at this
        simp only [dataRecords, List.flatten_cons, List.length_append, dirProtect_length, this]
        simp [Spec.innerPlaintext]
        omega
  exact this b.length b (Nat.le_refl _) d

theorem convertCode_ok {c : Record.Code} : convertCode c = .ok ↔ c = .ok := by
  cases c <;> simp [convertCode]

/-- Calls on the crypter in the outbound direction between two states of a protector. -/
def Calls (L : Lib) (s s' : State) : Prop :=
  ∃ ops evs, Record.run L s.conn ops = .ok (s'.conn, evs) ∧ s'.evs = s.evs ++ evs

theorem Calls.refl {L : Lib} (s : State) : Calls L s s := ⟨[], [], rfl, by simp⟩

theorem Calls.trans {L : Lib} {s1 s2 s3 : State} (h : Calls L s1 s2) (h' : Calls L s2 s3) :
    Calls L s1 s3 := by
  obtain ⟨o, e, a, b⟩ := h
  obtain ⟨o', e', a', b'⟩ := h'
  exact ⟨o ++ o', e ++ e', Record.run_append_ok a a', by rw [b', b, List.append_assoc]⟩

/-- What stays the same in a protector during `Protect`. -/
structure OutOnly (s s' : State) : Prop where
  conn : s'.conn = { s.conn with outC := s'.conn.outC }
  size : s'.maxRecordSize = s.maxRecordSize
  next : s'.next = s.next

theorem OutOnly.trans {s1 s2 s3 : State} (h : OutOnly s1 s2) (h' : OutOnly s2 s3) :
    OutOnly s1 s3 := by
  refine ⟨?_, h'.size.trans h.size, h'.next.trans h.next⟩
  rw [h'.conn, h.conn]

theorem crypterProtect_spec (L : Lib) (f : EvpFault) (s : State) (pt : List Iovec) (rb : Bytes)
    (hn : s.conn.outC.nonce.length = 12) :
    ∃ c r, s.crypterProtect L f pt (.buf rb) =
        .ok ({ s with conn := c, evs := s.evs ++ [.sealed r] }, r) ∧
      Record.protect L f s.conn .applicationData pt (.buf rb) = .ok (c, r) ∧
      Record.ProtectSpec L f s.conn .applicationData pt rb c r := by
  obtain ⟨c, r, h1, h2⟩ := Record.protect_spec L f s.conn .applicationData pt rb hn
  exact ⟨c, r, by simp [State.crypterProtect, h1], h1, h2⟩

theorem protectLoop_spec (L : Lib) (f : Nat → EvpFault) (id : BufId) (fuel i : Nat) (s : State)
    (vs : List Iovec) (on : Nat) (first : Bool) (rem idx : Nat) (ob : Bytes)
    (hn : s.conn.outC.nonce.length = 12) (hc : CurLe vs on) (hrem : rem + on = totalLen vs)
    (hfuel : rem + (if first then 1 else 0) < fuel) (hfirst : first = true → rem = 0)
    (hidx : idx ≤ ob.length) :
    ∃ s' st ob', protectLoop L f id fuel i s vs on first rem idx (.buf ob) =
        .ok (s', st, .buf ob') ∧
      ob'.length = ob.length ∧ OutOnly s s' ∧ Calls L s s' ∧
      s'.conn.outC.nonce.length = 12 ∧
      s'.mem = (if st = .ok then s.mem else s.mem ++ [.destroy id ob.length]) ∧
      ((rem = 0 ∧ first = false ∧ st = .ok ∧ s' = s ∧ ob' = ob) ∨
       ((first = true ∨ rem > 0) ∧
        (st = .ok → blocked s.conn.outC = false ∧ idx + rem + 22 * recordCount rem ≤ ob.length ∧
          ∀ d, At L s.conn.outC d →
            At L s'.conn.outC (d.skip (recordCount rem)) ∧ d.seq + recordCount rem ≤ 2 ^ 64 ∧
            (AllWF vs → ob' = ob.take idx ++ (messageRecords L d (ahead vs on)).flatten ++
              ob.drop (idx + rem + 22 * recordCount rem))) ∧
        (∀ d, At L s.conn.outC d → (∀ j, f j = .none) → AllWF vs →
          idx + rem + 22 * recordCount rem ≤ ob.length → d.seq + recordCount rem ≤ 2 ^ 64 →
          st = .ok))) := by
  induction fuel generalizing i s vs on first rem idx ob with
  | zero => omega
  | succ fuel ih =>
    unfold protectLoop
    by_cases hgo : (first || decide (rem > 0)) = true
    case neg =>
      rw [if_neg hgo]
      simp at hgo
      refine ⟨s, .ok, ob, rfl, rfl, ⟨rfl, rfl, rfl⟩, .refl s, hn, by simp, Or.inl ⟨hgo.2, hgo.1, rfl, rfl, rfl⟩⟩
    rw [if_pos hgo]
    have hgo' : first = true ∨ rem > 0 := by simpa using hgo
    have hN : ∃ N, N = (if rem < kMaxPlaintext then rem else kMaxPlaintext) ∧ N ≤ rem ∧ N ≤ 16384 ∧
        (rem ≤ 16384 → N = rem) ∧ (16384 < rem → N = 16384) := by
      refine ⟨_, rfl, ?_⟩
      simp only [kMaxPlaintext]
      split <;> refine ⟨?_, ?_, ?_, ?_⟩ <;> omega
    obtain ⟨N, hNe, hN1, hN2, hN3, hN4⟩ := hN
    simp only [← hNe]
    obtain ⟨ps, vs', on', k1, k2, k3, k4, k5⟩ := collect_spec vs on N hc (by omega)
    rw [k1]
    simp only [exec_bind_ok, Iovec.len, subSize_ok hidx]
    have hsl : (Iovec.buf ob).slice idx (ob.length - idx) = .ok (.buf (ob.drop idx)) := by
      simp only [Iovec.slice]
      rw [if_pos (by omega), List.take_of_length_le (by simp)]
    rw [hsl, exec_bind_ok]
    obtain ⟨c, r, e1, e2, e3⟩ := crypterProtect_spec L (f i) s ps (ob.drop idx) hn
    rw [e1]
    show ∃ s' st ob', (if r.code ≠ .ok then _ else if r.written ≠ N + 22 then
      pure (({ s with conn := c, evs := s.evs ++ [.sealed r] } : State).destroy id
              (Iovec.buf (ob.take idx ++ r.out.bytes)).len, .internal,
              .buf (ob.take idx ++ r.out.bytes)) else
      protectLoop L f id fuel (i + 1)
            { s with conn := c, evs := s.evs ++ [.sealed r] } vs' on' false (rem - N)
              (idx + r.written) (.buf (ob.take idx ++ r.out.bytes))) = .ok (s', st, .buf ob') ∧ _
    have hcalls : Calls L s { s with conn := c, evs := s.evs ++ [.sealed r] } :=
      ⟨[.protect (f i) .applicationData ps (.buf (ob.drop idx))], [.sealed r], by
        simp [Record.run, Record.step, e2], rfl⟩
    unfold Record.ProtectSpec at e3
    -- a failing call
    have fail : r.code ≠ .ok → c.outC.nonce.length = 12 → c = { s.conn with outC := c.outC } →
        (∃ o, r.out = .buf o ∧ o.length = ob.length - idx) →
        (∀ d, At L s.conn.outC d → (∀ j, f j = .none) → AllWF vs →
          idx + rem + 22 * recordCount rem ≤ ob.length → d.seq + recordCount rem ≤ 2 ^ 64 → False) →
        ∃ s' st ob', (if r.code ≠ .ok then
            (pure (({ s with conn := c, evs := s.evs ++ [.sealed r] } : State).destroy id
              (Iovec.buf (ob.take idx ++ r.out.bytes)).len, convertCode r.code,
              .buf (ob.take idx ++ r.out.bytes)) : Exec (State × StatusCode × Iovec))
          else if r.written ≠ N + 22 then
            pure (({ s with conn := c, evs := s.evs ++ [.sealed r] } : State).destroy id
              (Iovec.buf (ob.take idx ++ r.out.bytes)).len, .internal,
              .buf (ob.take idx ++ r.out.bytes))
          else protectLoop L f id fuel (i + 1)
            { s with conn := c, evs := s.evs ++ [.sealed r] } vs' on' false (rem - N)
              (idx + r.written) (.buf (ob.take idx ++ r.out.bytes))) = .ok (s', st, .buf ob') ∧
          ob'.length = ob.length ∧ OutOnly s s' ∧ Calls L s s' ∧
          s'.conn.outC.nonce.length = 12 ∧
          s'.mem = (if st = .ok then s.mem else s.mem ++ [.destroy id ob.length]) ∧
          ((rem = 0 ∧ first = false ∧ st = .ok ∧ s' = s ∧ ob' = ob) ∨
           ((first = true ∨ rem > 0) ∧
            (st = .ok → blocked s.conn.outC = false ∧ idx + rem + 22 * recordCount rem ≤ ob.length ∧
              ∀ d, At L s.conn.outC d →
                At L s'.conn.outC (d.skip (recordCount rem)) ∧ d.seq + recordCount rem ≤ 2 ^ 64 ∧
                (AllWF vs → ob' = ob.take idx ++ (messageRecords L d (ahead vs on)).flatten ++
                  ob.drop (idx + rem + 22 * recordCount rem))) ∧
            (∀ d, At L s.conn.outC d → (∀ j, f j = .none) → AllWF vs →
              idx + rem + 22 * recordCount rem ≤ ob.length → d.seq + recordCount rem ≤ 2 ^ 64 →
              st = .ok))) := by
      intro hcode hnl hfr ⟨o, ho1, ho2⟩ hno
      rw [if_pos hcode]
      have hlen : (ob.take idx ++ o).length = ob.length := by simp [ho2]; omega
      have hne : convertCode r.code ≠ .ok := fun h => hcode (convertCode_ok.1 h)
      refine ⟨_, _, _, rfl, ?_, ⟨hfr, rfl, rfl⟩, ?_, hnl, ?_, Or.inr ⟨hgo', fun h => absurd h hne,
        fun d a1 a2 a3 a4 a5 => (hno d a1 a2 a3 a4 a5).elim⟩⟩
      · rw [ho1]; exact hlen
      · exact hcalls
      · rw [if_neg hne]
        simp only [State.destroy, Iovec.len, ho1, Iovec.bytes, hlen]
    have hrc : 1 ≤ recordCount rem := recordCount_pos rem
    have hroomle : N + 22 ≤ rem + 22 * recordCount rem := by omega
    rcases e3 with ⟨g1, g2, g3⟩ | ⟨g1, g2, ⟨g3, _⟩ | ⟨t, g3, g⟩⟩
    · refine fail (by rw [g3]; simp) (by rw [g2]; exact hn) (by rw [g2])
        ⟨ob.drop idx, by rw [g3], by simp⟩ ?_
      intro d a1 a2 a3 a4 a5
      rw [k2] at g1
      simp at g1
      omega
    · simp [Spec.contentType] at g3
    rcases g with ⟨g4, g5, g6⟩ | ⟨g4, g5, g6, _, g7 | ⟨g7, g8, g9, g10⟩⟩
    · refine fail (by rw [g6]; simp) (by rw [g5]; exact hn) (by rw [g5])
        ⟨_, by rw [g6], by simp⟩ ?_
      intro d a1 a2 a3 a4 a5
      have := a1.not_blocked (by omega)
      rw [this] at g4; cases g4
    · refine fail g7.1 (by rw [g5]; exact hn) (by rw [g5]) ⟨_, g7.2.2.1, by simp⟩ ?_
      intro d a1 a2 a3 a4 a5
      exact g7.2.2.2 ⟨a2 i, (k5 a3).1⟩
    · -- a successful call
      rw [if_neg (not_not_intro g7), if_neg (not_not_intro (by rw [g9, k2]))]
      rw [k2] at g9 g2 g10
      have ht : t = Spec.appDataType := by simp [Spec.contentType] at g3; exact g3.symm
      subst ht
      have hol : r.out.bytes.length = ob.length - idx := by
        have hfl := g8.totalLen_eq
        rw [g10]
        simp only [Iovec.bytes, List.length_append, sealRecord_length, Spec.innerPlaintext,
          List.length_cons, List.replicate_zero, List.length_nil, List.length_drop]
        simp only [List.length_drop] at g2
        omega
      have hlen : (ob.take idx ++ r.out.bytes).length = ob.length := by
        simp [hol]; omega
      have hNrem : first = true ∨ rem > 0 → N = 0 → rem = 0 := by omega
      simp only [List.length_drop] at g2
      obtain ⟨s', st, ob', q1, q2, q3, q4, q5, q6, q7⟩ := ih (i + 1)
        { s with conn := c, evs := s.evs ++ [.sealed r] } vs' on' false (rem - N)
        (idx + r.written) (ob.take idx ++ r.out.bytes) (by rw [g5]; exact hn) k3
        (by omega) (by simp; rcases hgo' with h | h; (have := hfirst h; subst h; simp at hfuel; omega); (split at hfuel <;> omega)) (by intro h; cases h) (by rw [hlen, g9]; omega)
      rw [hlen] at q2 q6
      refine ⟨s', st, ob', q1, q2, OutOnly.trans (s2 := { s with conn := c, evs := s.evs ++ [.sealed r] }) ⟨by rw [g5], rfl, rfl⟩ q3, hcalls.trans q4, q5, q6,
        Or.inr ⟨hgo', ?_⟩⟩
      have hfl := g8.totalLen_eq
      -- what the first record is
      have hrec : ∀ d, At L s.conn.outC d → r.out.bytes =
          d.protect L (Spec.innerPlaintext (flat ps) Spec.appDataType 0) ++
            (ob.drop idx).drop (N + 22) := by
        intro d hd
        have hlt := hd.lt g4
        rw [g10]
        simp only [Iovec.bytes, hd.nonce hlt, hd.key, hd.good.alg]
        rfl
      have hat : ∀ d, At L s.conn.outC d → d.seq < 2 ^ 64 ∧ At L c.outC d.next := by
        intro d hd
        have hlt := hd.lt g4
        refine ⟨hlt, ?_⟩
        rw [g5]
        exact hd.bump hlt
      rcases q7 with ⟨w1, _, w2, w3, w4⟩ | ⟨w1, w2, w3⟩
      · -- the last record
        have hle : rem ≤ 16384 := by omega
        have hNr : N = rem := hN3 hle
        rw [recordCount_short hle]
        refine ⟨fun _ => ⟨g4, by omega, fun d hd => ?_⟩, fun _ _ _ _ _ _ => w2⟩
        obtain ⟨x1, x2⟩ := hat d hd
        subst w3
        refine ⟨x2, by omega, fun hw => ?_⟩
        rw [w4, hrec d hd]
        have hB : (ahead vs on).length = rem := by
          unfold ahead; rw [List.length_drop, ← hw.totalLen_eq]; omega
        have hps : flat ps = ahead vs on := by
          rw [(k5 hw).2.2.1, List.take_of_length_le (by omega)]
        unfold messageRecords
        rw [fragments_short (by omega)]
        simp only [dataRecords, List.flatten_cons, List.flatten_nil, List.append_nil, hps,
          List.drop_drop, List.append_assoc]
        congr 3
        omega
      · have hgt : 16384 < rem := by
          rcases w1 with h | h
          · cases h
          · omega
        have hNr : N = 16384 := hN4 hgt
        subst hNr
        rw [recordCount_long hgt]
        refine ⟨fun hok => ?_, ?_⟩
        · obtain ⟨y1, y2, y3⟩ := w2 hok
          rw [hlen, g9] at y2
          refine ⟨g4, by omega, fun d hd => ?_⟩
          obtain ⟨x1, x2⟩ := hat d hd
          obtain ⟨z1, z2, z3⟩ := y3 d.next x2
          have hnx : d.next.skip (recordCount (rem - 16384)) =
              d.skip (recordCount (rem - 16384) + 1) := by
            simp [Spec.Dir.skip, Spec.Dir.next]; omega
          have hsq : d.next.seq = d.seq + 1 := rfl
          rw [hsq] at z2
          refine ⟨by rw [← hnx]; exact z1, by omega, fun hw => ?_⟩
          obtain ⟨v1, v2, v3, v4⟩ := k5 hw
          rw [z3 v2, v4]
          have hB : (ahead vs on).length = rem := by
            unfold ahead; rw [List.length_drop, ← hw.totalLen_eq]; omega
          unfold messageRecords
          rw [fragments_long (b := ahead vs on) (by omega)]
          simp only [dataRecords, List.flatten_cons, ← v3]
          rw [hrec d hd, g9]
          have hpl : (d.protect L (Spec.innerPlaintext (flat ps) Spec.appDataType 0)).length =
              16384 + 22 := by
            rw [dirProtect_length]; simp [Spec.innerPlaintext]; omega
          have htk : List.take (idx + (16384 + 22)) (ob.take idx ++
              (d.protect L (Spec.innerPlaintext (flat ps) Spec.appDataType 0) ++
                (ob.drop idx).drop (16384 + 22))) =
              ob.take idx ++ d.protect L (Spec.innerPlaintext (flat ps) Spec.appDataType 0) := by
            rw [← List.append_assoc, List.take_append_of_le_length (by rw [List.length_append, hpl, List.length_take]; omega),
              List.take_of_length_le (by rw [List.length_append, hpl, List.length_take]; omega)]
          have htl : List.drop (idx + (16384 + 22) + (rem - 16384) + 22 * recordCount (rem - 16384))
              (ob.take idx ++ (d.protect L (Spec.innerPlaintext (flat ps) Spec.appDataType 0) ++
                (ob.drop idx).drop (16384 + 22))) =
              ob.drop (idx + rem + 22 * (recordCount (rem - 16384) + 1)) := by
            rw [← List.append_assoc, List.drop_append,
              List.drop_of_length_le (by rw [List.length_append, hpl, List.length_take]; omega),
              List.nil_append, List.drop_drop, List.drop_drop, List.length_append, hpl,
              List.length_take]
            exact congrArg (List.drop · ob) (by omega)
          rw [htk, htl]
          simp only [List.append_assoc]
        · intro d hd hf hw hroom hseq
          obtain ⟨x1, x2⟩ := hat d hd
          have hsq : d.next.seq = d.seq + 1 := rfl
          exact w3 d.next x2 hf (k5 hw).2.1 (by rw [hlen, g9]; omega) (by omega)

end S2A.Frame
