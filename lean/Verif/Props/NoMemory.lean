import Verif.Props.Failure
/-
Calls that fail for want of memory, or because the library fails, and what becomes of them when
they are made again (C89).
-/
namespace S2A.Frame
open HalfConn (exec_bind_eq_ok At)
open Spec (AllocOk NonEmptyBufs)
open Record (outPos inPos)
open Demo

set_option maxRecDepth 100000

/-- A call of `Protect` for which the allocator gives less memory than the first record needs
(the usual case is no memory at all: a null buffer of length 0).  The call fails, returns nothing
and writes nothing; the connection is as before.  The buffer, if it is one, is given back (twice,
see C77). -/
theorem C89_protect_without_memory (L : Lib) (A : Allocator) (f : Nat → EvpFault) (s : State)
    (vs : List Iovec) (hwf : (A s.next (numberBytesToProtect s (totalLen vs))).WF)
    (hshort : (A s.next (numberBytesToProtect s (totalLen vs))).len <
      min (totalLen vs) 16384 + 22) :
    ∃ s', protect L A f s vs = .ok (s', ⟨.failedPrecondition, []⟩) ∧ s'.conn = s.conn := by
  unfold protect protectInto
  simp only [State.alloc]
  generalize A s.next (numberBytesToProtect s (totalLen vs)) = buf at hwf hshort ⊢
  generalize hq : ({ s with next := s.next + 1, mem := s.mem ++ [.alloc (.heap s.next)
    (numberBytesToProtect s (totalLen vs))] } : State) = q
  have hqc : q.conn = s.conn := by rw [← hq]
  have hqe : q.evs = s.evs := by rw [← hq]
  unfold protectLoop
  have hgo : (decide (totalLen vs = 0) || decide (totalLen vs > 0)) = true := by simp; omega
  rw [if_pos hgo]
  have hN : (if totalLen vs < kMaxPlaintext then totalLen vs else kMaxPlaintext) =
      min (totalLen vs) 16384 := by simp only [kMaxPlaintext]; split <;> omega
  rw [hN]
  obtain ⟨ps, vs', on', k1, k2, _⟩ := collect_spec vs 0 (min (totalLen vs) 16384) (curLe_start vs)
    (by omega)
  have hsl : buf.slice 0 buf.len = .ok buf := by
    cases buf with
    | null n => simp [Iovec.slice, Iovec.len]
    | buf d => simp [Iovec.slice, Iovec.len]
  have hp : Record.protect L (f 0) q.conn .applicationData ps buf =
      .ok (q.conn, ⟨.failedPrecondition, 0, buf, none, none, none⟩) := by
    unfold Record.protect
    simp only [k2]
    have hmax : Record.kMaxPlaintext = 16384 := rfl
    rw [if_neg (by rw [hmax]; omega), if_pos (by rw [Record.recordOverhead_eq]; omega)]
  simp only [k1, exec_bind_ok, subSize_ok (Nat.zero_le _), Nat.sub_zero, hsl,
    State.crypterProtect, hp, exec_pure]
  rw [if_pos (by simp)]
  simp only [exec_bind_ok, convertCode]
  rw [if_pos (by simp)]
  exact ⟨_, rfl, hqc⟩

/-- So the call can be made again: if there is memory then (and the library does not fail, and
the sequence numbers suffice), it returns exactly the records that the first call would have
returned, at the same position of the connection.

Missing for the property: `Unprotect` (`C89_unprotect_spends_the_number`), and failures of the
library (`C89_library_failure_spends_the_number`). -/
theorem C89_protect_again_partial (L : Lib) (A A' : Allocator) (hA : AllocOk A') (o : Options)
    (su : Spec.Suite) (hsu : Spec.suite o.args.ciphersuite = some su) (s : State)
    (hr : Reach L A o s) (hlive : s.conn.outC.alwaysFail = false) (f g : Nat → EvpFault)
    (hg : ∀ i, g i = .none) (vs : List Iovec) (hw : AllWF vs)
    (hnone : A s.next (numberBytesToProtect s (totalLen vs)) = .null 0)
    (hseq : (outPos L o.args su s.evs).seq + Spec.recordCount (flat vs).length ≤ 2 ^ 64) :
    ∃ s' s'' id, protect L A f s vs = .ok (s', ⟨.failedPrecondition, []⟩) ∧
      protect L A' g s' vs = .ok (s'', ⟨.ok, [(id,
        (Spec.messageRecords L (outPos L o.args su s.evs) (flat vs)).flatten)]⟩) := by
  have hc := hr.conn.1
  have hat : At L s.conn.outC (outPos L o.args su s.evs) := by
    rcases hc.outAt hsu with h | h
    · rw [hlive] at h; cases h
    · exact h
  obtain ⟨s', h1, h2⟩ := C89_protect_without_memory L A f s vs (by rw [hnone]; rfl)
    (by rw [hnone]; simp only [Iovec.len]; omega)
  obtain ⟨ops, evs, g1, g2⟩ := (protect_steps h1).calls
  have hc' : Record.Reach L o.args s'.conn s'.evs := by rw [g2]; exact hc.run g1
  obtain ⟨s'', ⟨st, bs⟩, e, _, _, hcase⟩ := protect_call (A := A') (f := g) (vs := vs) hA hc'
  rw [h2] at hcase
  rcases hcase with ⟨e1, _, b, e2, _, hall⟩ | ⟨_, _, _, h4⟩
  · cases e1
    cases e2
    obtain ⟨_, _, q3⟩ := hall _ hat
    rw [q3 hw] at e
    exact ⟨s', s'', _, h1, e⟩
  · have := h4 _ hat hg hw
    rw [hw.totalLen_eq] at this
    omega

/-- In a loop of `Protect` that fails although there is room and there are numbers enough, one
number was spent for every record that was tried, the failing one included. -/
theorem protectLoop_spent {L : Lib} {f : Nat → EvpFault} {id : BufId} {fuel i : Nat} {s : State}
    {vs : List Iovec} {on : Nat} {first : Bool} {rem idx : Nat} {ob : Bytes} {s' : State}
    {st : StatusCode} {o : Iovec} {d : Spec.Dir} (hat : At L s.conn.outC d)
    (hc : CurLe vs on) (hrem : rem + on = totalLen vs) (hfirst : first = true → rem = 0)
    (hroom : idx + rem + 22 * Spec.recordCount rem ≤ ob.length)
    (hseq : d.seq + Spec.recordCount rem ≤ 2 ^ 64)
    (h : protectLoop L f id fuel i s vs on first rem idx (.buf ob) = .ok (s', st, o))
    (hno : st ≠ .ok) :
    ∃ k, 1 ≤ k ∧ k ≤ Spec.recordCount rem ∧ At L s'.conn.outC (d.skip k) := by
  induction fuel generalizing i s vs on first rem idx ob d with
  | zero => cases h
  | succ fuel ih =>
    unfold protectLoop at h
    by_cases hgo : (first || decide (rem > 0)) = true
    case neg =>
      rw [if_neg hgo] at h
      cases h
      exact absurd rfl hno
    rw [if_pos hgo] at h
    have hN : (if rem < kMaxPlaintext then rem else kMaxPlaintext) = min rem 16384 := by
      simp only [kMaxPlaintext]; split <;> omega
    rw [hN] at h
    have hrc := recordCount_pos rem
    obtain ⟨ps, vs', on', k1, k2, k3, k4, k5⟩ := collect_spec vs on (min rem 16384) hc (by omega)
    simp only [k1, exec_bind_ok, Iovec.len, subSize_ok (show idx ≤ ob.length by omega)] at h
    have hsl : (Iovec.buf ob).slice idx (ob.length - idx) = .ok (.buf (ob.drop idx)) := by
      simp only [Iovec.slice]
      rw [if_pos (by omega), List.take_of_length_le (by simp)]
    rw [hsl, exec_bind_ok] at h
    obtain ⟨c, r, e1, e2, e3⟩ := crypterProtect_spec L (f i) s ps (ob.drop idx) hat.good.nonce
    rw [e1, exec_bind_ok] at h
    dsimp only at h
    have hlt : d.seq < 2 ^ 64 := by omega
    have hnb := hat.not_blocked hlt
    have hmin : min rem 16384 ≤ rem := by omega
    rcases e3 with ⟨g1, _⟩ | ⟨g1, g2, ⟨g3, _⟩ | ⟨t, g3, ⟨g4, _⟩ | ⟨g4, g5, _, _, g7⟩⟩⟩
    · rw [k2, List.length_drop] at g1
      omega
    · simp [Spec.contentType] at g3
    · rw [hnb] at g4; cases g4
    · have hat' : At L c.outC d.next := by rw [g5]; exact hat.bump hlt
      by_cases hcode : r.code ≠ .ok
      · rw [if_pos hcode] at h
        cases h
        exact ⟨1, by omega, hrc, hat'⟩
      · rw [if_neg hcode] at h
        rcases g7 with ⟨g7, _⟩ | ⟨_, g8, g9, g10⟩
        · exact absurd g7 hcode
        rw [k2] at g9 g10
        split at h
        next hx => exact absurd g9 hx
        rw [g9, g10] at h
        have hol : (ob.take idx ++ (Iovec.buf (Spec.sealRecord L s.conn.outC.aead.alg
            s.conn.outC.aead.key (Spec.recordNonce s.conn.outC.nonce s.conn.outC.seq.toNat)
            (Spec.innerPlaintext (flat ps) t 0) ++ (ob.drop idx).drop (min rem 16384 + 22))).bytes
            ).length = ob.length := by
          have hfl := g8.totalLen_eq
          simp only [Iovec.bytes, List.length_append, sealRecord_length, Spec.innerPlaintext,
            List.length_cons, List.replicate_zero, List.length_nil, List.length_drop,
            List.length_take]
          omega
        by_cases hle : rem ≤ 16384
        · -- that was the last record
          exfalso
          have hz : rem - min rem 16384 = 0 := by omega
          rw [hz] at h
          cases fuel with
          | zero => cases h
          | succ fuel =>
            unfold protectLoop at h
            rw [if_neg (by simp)] at h
            cases h
            exact hno rfl
        · have hl := recordCount_long (n := rem) (by omega)
          have hm : min rem 16384 = 16384 := by omega
          rw [hm] at h hol k4
          obtain ⟨k, q1, q2, q3⟩ := ih (d := d.next) hat' k3 (by omega) (by intro h; cases h)
            (by rw [show (Iovec.buf ob).bytes = ob from rfl, hol]; omega)
            (by simp only [Spec.Dir.next]; omega) h
          refine ⟨k + 1, by omega, by omega, ?_⟩
          have : d.next.skip k = d.skip (k + 1) := by
            simp [Spec.Dir.skip, Spec.Dir.next]; omega
          rw [← this]
          exact q3

/-- A call of `Protect` that fails although there is memory and there are sequence numbers (so the
library failed) has spent at least one number, and at most one for each record of the message.
The same call made again, without failures, returns the records at that later position. -/
theorem C89_library_failure_spends_the_number (L : Lib) (A : Allocator) (hA : AllocOk A)
    (o : Options) (su : Spec.Suite) (hsu : Spec.suite o.args.ciphersuite = some su) (s s' : State)
    (hr : Reach L A o s) (hlive : s.conn.outC.alwaysFail = false) (f g : Nat → EvpFault)
    (hg : ∀ i, g i = .none) (vs : List Iovec) (hw : AllWF vs) (res : Result)
    (hseq : (outPos L o.args su s.evs).seq + 2 * Spec.recordCount (flat vs).length ≤ 2 ^ 64)
    (h : protect L A f s vs = .ok (s', res)) (hno : res.status ≠ .ok) :
    ∃ k s'' id, 1 ≤ k ∧ k ≤ Spec.recordCount (flat vs).length ∧
      protect L A g s' vs = .ok (s'', ⟨.ok, [(id,
        (Spec.messageRecords L ((outPos L o.args su s.evs).skip k) (flat vs)).flatten)]⟩) := by
  have hc := hr.conn.1
  have hat : At L s.conn.outC (outPos L o.args su s.evs) := by
    rcases hc.outAt hsu with h | h
    · rw [hlive] at h; cases h
    · exact h
  obtain ⟨ops, evs, g1, g2⟩ := (protect_steps h).calls
  have hc' : Record.Reach L o.args s'.conn s'.evs := by rw [g2]; exact hc.run g1
  have hfl := hw.totalLen_eq
  have hk : ∃ k, 1 ≤ k ∧ k ≤ Spec.recordCount (flat vs).length ∧
      At L s'.conn.outC ((outPos L o.args su s.evs).skip k) := by
    obtain ⟨ob, ho1, ho2⟩ := hA s.next (numberBytesToProtect s (totalLen vs))
    simp only [protect, State.alloc, exec_bind_eq_ok, ho1] at h
    obtain ⟨⟨s1, st, out⟩, h1, h2⟩ := h
    simp only at h2
    by_cases hst : st = .ok
    · rw [if_neg (not_not_intro hst)] at h2
      cases h2
      exact absurd rfl hno
    · rw [if_pos hst] at h2
      cases h2
      unfold protectInto at h1
      obtain ⟨k, q1, q2, q3⟩ := protectLoop_spent (d := outPos L o.args su s.evs)
        (by exact hat) (curLe_start vs) (by omega) (by simp)
        (by rw [ho2, numberBytesToProtect_eq]; omega) (by rw [hfl]; omega) h1 hst
      rw [hfl] at q2
      exact ⟨k, q1, q2, q3⟩
  obtain ⟨k, q1, q2, q3⟩ := hk
  obtain ⟨s'', ⟨st, bs⟩, e, _, _, hcase⟩ := protect_call (A := A) (f := g) (vs := vs) hA hc'
  rcases hcase with ⟨e1, _, b, e2, _, hall⟩ | ⟨_, _, _, h4⟩
  · cases e1
    cases e2
    obtain ⟨_, _, q4⟩ := hall _ q3
    rw [q4 hw] at e
    exact ⟨k, s'', _, q1, q2, e⟩
  · have := h4 _ q3 hg hw
    simp only [Spec.Dir.skip] at this
    rw [hfl] at this
    omega

/-- A call of `Unprotect` for which the allocator gives less memory than the plaintext of the
first record needs.  The call fails with INTERNAL, returns nothing, and a sequence number is
spent.  If the same bytes are passed again, now with memory, the call can succeed only if the
record also opens at the next position, which no record protected at this one should. -/
theorem C89_unprotect_spends_the_number (L : Lib) (A : Allocator) (o : Options)
    (su : Spec.Suite) (hsu : Spec.suite o.args.ciphersuite = some su) (s : State)
    (hr : Reach L A o s) (hlive : s.conn.inC.alwaysFail = false)
    (hopen : s.conn.closeNotify = false) (f : Nat → Record.Fault) (vs : List Iovec)
    (hv : NonEmptyBufs vs) (hd payload rest : Bytes)
    (hfirst : Spec.firstRecord (flat vs) = some (hd, payload, rest))
    (hsize : 17 ≤ payload.length ∧ payload.length ≤ 16401)
    (hseq : (inPos L o.args su s.evs).seq < 2 ^ 64)
    (hwf : (A s.next payload.length).WF)
    (hshort : (A s.next payload.length).len < payload.length - 16) :
    ∃ s', unprotect L A f s vs = .ok (s', ⟨.internal, []⟩) ∧
      inPos L o.args su s'.evs = (inPos L o.args su s.evs).next ∧
      ∀ (A' : Allocator) (g : Nat → Record.Fault) (s'' : State) (res : Result), AllocOk A' →
        unprotect L A' g s' vs = .ok (s'', res) → res.status = .ok →
        ((inPos L o.args su s.evs).next.open L hd payload).isSome := by
  have hc := hr.conn.1
  have hat : At L s.conn.inC (inPos L o.args su s.evs) := by
    rcases hc.inAt hsu with h | h
    · rw [hlive] at h; cases h
    · exact h
  have hfl := hv.wf.totalLen_eq
  obtain ⟨hcat, hwhole⟩ := firstRecord_some hfirst
  have hhd : hd.length = 5 := by rw [hwhole.header]; rfl
  have hlen : 22 ≤ (flat vs).length := by
    rw [hcat]; simp only [List.length_append]; omega
  have key : ∃ s', unprotect L A f s vs = .ok (s', ⟨.internal, []⟩) ∧
      inPos L o.args su s'.evs = (inPos L o.args su s.evs).next := by
    unfold unprotect
    simp only
    rw [if_neg (by rw [Record.recordOverhead_eq]; omega)]
    unfold unprotectLoop
    rw [if_pos (by rw [Record.recordOverhead_eq]; omega)]
    rcases walk_spec vs 0 (cursor_start hv) with ⟨hno, _⟩ |
      ⟨hd', payload', rest', vs1, on1, ps, vs', on2, hfr, k1, k2, k3, k4, k5, k6, k7⟩
    · simp only [ahead, List.drop_zero, hfirst] at hno
      cases hno
    simp only [ahead, List.drop_zero, hfirst, Option.some.injEq, Prod.mk.injEq] at hfr
    obtain ⟨rfl, rfl, rfl⟩ := hfr
    rw [k3] at k2
    simp only [kHeaderLength, k1, exec_bind_ok, k3, k2, State.alloc, State.crypterUnprotect]
    generalize A s.next payload.length = buf at hwf hshort ⊢
    have htl : totalLen ps = payload.length := by rw [k5.totalLen_eq, k4]
    have hh5 : (Iovec.buf hd).len = 5 := hhd
    have hu : ∃ call, Record.unprotect L (f 0) s.conn (.buf hd) ps buf =
        .ok ({ s.conn with inC := HalfConn.bump s.conn.inC },
          ⟨.internalError, 0, buf.setBytes (zeros buf.len), some call, none, none⟩) := by
      rcases Record.unprotect_spec L (f 0) s.conn (.buf hd) ps buf hat.good.nonce k5 hwf with
        ⟨h1, _⟩ | ⟨_, ⟨h1, _⟩ | ⟨h1, _⟩ | ⟨_, _, ⟨h1, _⟩ | ⟨_, ⟨h1, _⟩ | ⟨_, ⟨h1, _⟩ | ⟨p, ob, _, h2, h3, _, h4, _⟩⟩⟩⟩⟩
      · rw [hopen] at h1; cases h1
      · rw [htl, hh5] at h1; omega
      · rw [htl, hh5] at h1; omega
      · exact absurd (by rw [htl, hwhole.header]) h1
      · rw [hat.not_blocked hseq] at h1; cases h1
      · exact ⟨_, h1⟩
      · subst h2
        simp only [Iovec.len] at hshort
        omega
    obtain ⟨call, hu⟩ := hu
    simp only [hu, exec_bind_ok, exec_pure]
    rw [if_pos (by simp)]
    refine ⟨_, rfl, ?_⟩
    rw [destroyAll_eq]
    simp only [State.destroy]
    unfold inPos
    rw [Record.inTrace_append, HalfConn.after_append]
    rfl
  obtain ⟨s', h1, h2⟩ := key
  refine ⟨s', h1, h2, ?_⟩
  intro A' g s'' res hA' h hok
  obtain ⟨ops, evs, g1, g2⟩ := (unprotect_steps h1).calls
  have hc' : Record.Reach L o.args s'.conn s'.evs := by rw [g2]; exact hc.run g1
  rcases unprotect_call (f := g) hA' hsu hc' hv with hub | ⟨_, _, _, e, _, _, _, hcase⟩
  · rw [h] at hub; cases hub
  rw [h] at e
  cases e
  rcases hcase with ⟨_, _, _, recs, tail, out, e1, e2, e3, _, e5⟩ | ⟨hno, _⟩ | ⟨hno, _⟩
  · rw [h2] at e5
    cases recs with
    | nil =>
      simp only [List.map_nil, List.flatten_nil, List.nil_append] at e1
      rw [e1] at hlen
      omega
    | cons rc recs =>
      obtain ⟨hd1, p1⟩ := rc
      have hw1 := e3 (hd1, p1) (by simp)
      have hf1 : Spec.firstRecord (flat vs) =
          some (hd1, p1, (recs.map fun r => r.1 ++ r.2).flatten ++ tail) := by
        rw [e1]
        simp only [List.map_cons, List.flatten_cons, List.append_assoc]
        rw [← List.append_assoc]
        exact firstRecord_whole hw1 _
      rw [hfirst] at hf1
      cases hf1
      cases e5 with
      | data ho _ _ => rw [ho]; rfl
      | handshake ho _ _ _ => rw [ho]; rfl
  · exact absurd hok hno
  · rw [hno] at hok; cases hok

/-- The status and the bytes of a result. -/
def seen (r : Result) : StatusCode × List Bytes := (r.status, r.bytes.map (·.2))

/-- An allocator without memory. -/
def noMemory : Allocator := fun _ _ => .null 0

/-- Witness for `C89_protect_again_partial`. -/
example : leftS.conn.outC.alwaysFail = false ∧
    noMemory leftS.next (numberBytesToProtect leftS (totalLen [.buf [1, 2, 3]])) = .null 0 ∧
    Reach Lib.toy noMemory leftO leftS ∧
    (outPos Lib.toy leftO.args ⟨.aes128gcm, .sha256, 16⟩ leftS.evs).seq +
      Spec.recordCount (flat [.buf [1, 2, 3]]).length ≤ 2 ^ 64 ∧
    ∃ s', protect Lib.toy noMemory (fun _ => .none) leftS [.buf [1, 2, 3]] =
        .ok (s', ⟨.failedPrecondition, []⟩) ∧
      status (protect Lib.toy alloc (fun _ => .none) s' [.buf [1, 2, 3]]) seen =
        some (.ok, [record 0 [1, 2, 3, 23]]) :=
  ⟨rfl, rfl, ⟨_, [], [], left_created, rfl⟩, by decide +kernel, _, rfl, by decide +kernel⟩

/-- `Unprotect` without memory cannot be made again: the record is refused for good, although it
is authentic and was not delivered. -/
theorem C89_unprotect_cannot_be_repeated : ∃ s',
    unprotect Lib.toy noMemory (fun _ => .none) rightS [.buf (record 0 [1, 2, 23])] =
      .ok (s', ⟨.internal, []⟩) ∧
    status (unprotect Lib.toy alloc (fun _ => .none) s' [.buf (record 0 [1, 2, 23])]) seen =
      some (.internal, []) ∧
    status (unprotect Lib.toy alloc (fun _ => .none) rightS [.buf (record 0 [1, 2, 23])]) seen =
      some (.ok, [[1, 2]]) :=
  ⟨_, rfl, by decide +kernel, by decide +kernel⟩

/-- Nor can `Protect` after a failure of the library: the second call succeeds, but the peer
refuses what it returns. -/
theorem C89_protect_cannot_be_repeated : ∃ s',
    protect Lib.toy alloc (fun _ => { EvpFault.none with final := true }) leftS [.buf [1, 2]] = .ok (s', ⟨.internal, []⟩) ∧
    status (protect Lib.toy alloc (fun _ => .none) s' [.buf [1, 2]]) seen =
      some (.ok, [record 1 [1, 2, 23]]) ∧
    status (unprotect Lib.toy alloc (fun _ => .none) rightS [.buf (record 1 [1, 2, 23])]) seen =
      some (.internal, []) :=
  ⟨_, rfl, by decide +kernel, by decide +kernel⟩

end S2A.Frame
