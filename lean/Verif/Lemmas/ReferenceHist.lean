import Verif.Lemmas.Reference
import Verif.Spec.Observed
/-
Histories of a crypter and of a frame protector against the reference machine.
-/
namespace S2A.Record
open HalfConn (At)
open Handler (Hears)
open Spec (Machine)

theorem Acts.created {L : Lib} {a c s} (h : Created L a c) (hs : Spec.suite a.ciphersuite = some s) :
    Acts L c (Machine.start (outDir a s) (inDir a s)) := by
  obtain ⟨h1, h2⟩ := h.at hs
  obtain ⟨fi, fo, h⟩ := h
  obtain ⟨_, _, _, _, _, _, h⟩ := create_inv h
  have e1 : c.handler = .init := by rw [h]
  have e2 : c.phase = .notReceived := by rw [h]
  have e3 : c.expecting = false := by rw [h]
  have e4 : c.closeNotify = false := by rw [h]
  have e5 : c.sent = [] := by rw [h]
  refine ⟨.of h2, .of h1, ?_, ?_, ?_, e2, e3, e4, ?_⟩
  · rw [e1]; exact ⟨Handler.init_rel, by simp⟩
  · rw [e1]; exact Handler.init_tinv
  · intro _; rw [e1]; exact ⟨rfl, rfl⟩
  · rw [e5]; rfl

/-- A call, and what the machine says. -/
def Matches (L : Lib) {β γ : Type} (see : β → γ) (o : Option (Machine × γ))
    (x : Exec (Conn × β)) : Prop :=
  match o with
  | none => x = .error .negativeShift
  | some (m, g) => ∃ c b, x = .ok (c, b) ∧ see b = g ∧ Acts L c m

theorem acts_step {L : Lib} {c : Conn} {m : Machine} {op : Op} (a : Acts L c m) (hf : op.Fine) :
    Matches L Event.plain (m.step L op.plain) (step L c op) := by
  cases op with
  | protect f rt pt rec =>
    obtain ⟨rfl, h1, h2⟩ := hf
    obtain ⟨c', r, e1, e2, e3, e4⟩ := acts_send (rt := rt) a h1 h2
    simp only [step, e1, exec_bind_ok]
    exact ⟨_, _, rfl, by rw [Event.plain, e2, e3], e4⟩
  | unprotect f h pl out =>
    obtain ⟨rfl, h1, h2, h3⟩ := hf
    have hg := acts_receive a h1 h2 h3
    simp only [step, Machine.step, Op.plain]
    generalize m.receive L h.bytes (flat pl) out.len = o at hg
    cases o with
    | none =>
      have hg : unprotect L .none c h pl out = .error .negativeShift := hg
      rw [hg]; rfl
    | some y =>
      obtain ⟨m', code, b⟩ := y
      obtain ⟨c', r, e1, e2, e3, e4⟩ := hg
      rw [e1]
      exact ⟨_, _, rfl, by rw [Event.plain, e2, e3], e4⟩
  | updateOutboundKey f =>
    obtain rfl := hf
    obtain ⟨c', e1, e2⟩ := acts_rekey a
    simp only [step, e1, exec_bind_ok]
    exact ⟨_, _, rfl, rfl, e2⟩

theorem acts_run {L : Lib} {ops : List Op} : ∀ {c : Conn} {m : Machine}, Acts L c m →
    (∀ op ∈ ops, op.Fine) →
    Matches L (List.map Event.plain) (m.run L (ops.map Op.plain)) (run L c ops) := by
  induction ops with
  | nil => intro c m a _; exact ⟨_, _, rfl, rfl, a⟩
  | cons op ops ih =>
    intro c m a hf
    have h1 := acts_step (op := op) a (hf op (by simp))
    simp only [List.map_cons, Machine.run, run]
    generalize m.step L op.plain = o at h1
    cases o with
    | none =>
      have h1 : step L c op = .error .negativeShift := h1
      rw [h1]; rfl
    | some y =>
      obtain ⟨m1, ans⟩ := y
      obtain ⟨c1, e, e1, e2, e3⟩ := h1
      have h2 := ih e3 (fun op h => hf op (by simp [h]))
      rw [e1]
      simp only [exec_bind_ok]
      generalize m1.run L (ops.map Op.plain) = o at h2
      cases o with
      | none =>
        have h2 : run L c1 ops = .error .negativeShift := h2
        rw [h2]; rfl
      | some y =>
        obtain ⟨m2, as⟩ := y
        obtain ⟨c2, es, g1, g2, g3⟩ := h2
        rw [g1]
        exact ⟨_, _, rfl, by rw [List.map_cons, e2, g2], g3⟩

/-- One call in which the library may fail. -/
theorem acts_step_or {L : Lib} {c : Conn} {m : Machine} {op : Op} (a : Acts L c m)
    (hu : op.Usable) :
    Matches L Event.plain (m.step L op.plain) (step L c op) ∨
    (op.Troubled ∧ ∃ m' c' e, m.Lapse L op.plain m' ∧ step L c op = .ok (c', e) ∧
      e.plain = (.internalError, []) ∧ Acts L c' m') := by
  cases op with
  | protect f rt pt rec =>
    obtain ⟨h1, h2⟩ := hu
    rcases acts_send_or (f := f) (rt := rt) a h1 h2 with hg | ⟨hf, c', r, m', e1, ⟨e2, e3⟩, e4, e5⟩
    · obtain ⟨c', r, e1, e2, e3, e4⟩ := hg
      refine Or.inl ?_
      simp only [step, e1, exec_bind_ok]
      exact ⟨_, _, rfl, by rw [Event.plain, e2, e3], e4⟩
    · refine Or.inr ⟨hf, m', c', .sealed r, e3, ?_, ?_, e5⟩
      · simp only [step, e1, exec_bind_ok, exec_pure]
      · rw [Event.plain, e2, e4]
  | unprotect f h pl out =>
    obtain ⟨h1, h2, h3⟩ := hu
    rcases acts_receive_or (f := f) a h1 h2 h3 with hg | ⟨hf, c', r, m', e1, ⟨e2, e3⟩, e4, e5⟩
    · refine Or.inl ?_
      simp only [step, Machine.step, Op.plain]
      generalize m.receive L h.bytes (flat pl) out.len = o at hg
      cases o with
      | none =>
        have hg : unprotect L f c h pl out = .error .negativeShift := hg
        rw [hg]; rfl
      | some y =>
        obtain ⟨m', code, b⟩ := y
        obtain ⟨c', r, e1, e2, e3, e4⟩ := hg
        rw [e1]
        exact ⟨_, _, rfl, by rw [Event.plain, e2, e3], e4⟩
    · refine Or.inr ⟨hf, m', c', .opened r, e3, ?_, ?_, e5⟩
      · simp only [step, e1, exec_bind_ok, exec_pure]
      · rw [Event.plain, e2, e4]
  | updateOutboundKey f =>
    rcases acts_rekey_or (f := f) a with ⟨c', e1, e2⟩ | ⟨hf, c', st, e1, e2, e3⟩
    · refine Or.inl ?_
      simp only [step, e1, exec_bind_ok]
      exact ⟨_, _, rfl, rfl, e2⟩
    · refine Or.inr ⟨hf, _, c', .outboundUpdated st, rfl, ?_, ?_, e3⟩
      · simp only [step, e1, exec_bind_ok, exec_pure]
      · rw [Event.plain, if_neg e2]

theorem flagged_troubled {op : Op} (h : op.Troubled) : op.flagged = (op.plain, true) := by
  unfold Op.flagged; simp [h]

/-- A history in which the library may fail. -/
theorem acts_run_may {L : Lib} {ops : List Op} : ∀ {c : Conn} {m : Machine}, Acts L c m →
    (∀ op ∈ ops, op.Usable) →
    (∃ m' as c' es, run L c ops = .ok (c', es) ∧ es.map Event.plain = as ∧ Acts L c' m' ∧
      Machine.May L m (ops.map Op.flagged) m' as) ∨
    (run L c ops = .error .negativeShift ∧ ∃ pre op suf m' as, ops = pre ++ op :: suf ∧
      Machine.May L m (pre.map Op.flagged) m' as ∧ m'.step L op.plain = none) := by
  induction ops with
  | nil => intro c m a _; exact Or.inl ⟨m, [], c, [], rfl, rfl, a, .nil m⟩
  | cons op ops ih =>
    intro c m a hu
    have next : ∀ {m1 c1 e}, step L c op = .ok (c1, e) → Acts L c1 m1 →
        (∀ {xs m2 as}, Machine.May L m1 xs m2 as →
          Machine.May L m (op.flagged :: xs) m2 (e.plain :: as)) →
        (∃ m' as c' es, run L c (op :: ops) = .ok (c', es) ∧ es.map Event.plain = as ∧ Acts L c' m' ∧
          Machine.May L m ((op :: ops).map Op.flagged) m' as) ∨
        (run L c (op :: ops) = .error .negativeShift ∧ ∃ pre o suf m' as, op :: ops = pre ++ o :: suf ∧
          Machine.May L m (pre.map Op.flagged) m' as ∧ m'.step L o.plain = none) := by
      intro m1 c1 e h1 h2 h3
      simp only [run, h1, exec_bind_ok]
      rcases ih h2 (fun op h => hu op (by simp [h])) with ⟨m', as, c', es, g1, g2, g3, g4⟩ |
        ⟨g1, pre, o, suf, m', as, g2, g3, g4⟩
      · refine Or.inl ⟨m', e.plain :: as, c', e :: es, ?_, ?_, g3, h3 g4⟩
        · rw [g1]; rfl
        · simp [g2]
      · refine Or.inr ⟨by rw [g1]; rfl, op :: pre, o, suf, m', e.plain :: as, by rw [g2]; rfl, h3 g3,
          g4⟩
    rcases acts_step_or (op := op) a (hu op (by simp)) with h | ⟨h1, m1, c1, e, h2, h3, h4, h5⟩
    · generalize hs : m.step L op.plain = o at h
      cases o with
      | none =>
        have h : step L c op = .error .negativeShift := h
        refine Or.inr ⟨?_, [], op, ops, m, [], rfl, .nil m, hs⟩
        simp only [run, h]; rfl
      | some y =>
        obtain ⟨m1, ans⟩ := y
        obtain ⟨c1, e, e1, e2, e3⟩ := h
        refine next e1 e3 ?_
        intro xs m2 as hm
        rw [e2]
        exact .step hs hm
    · refine next h3 h5 ?_
      intro xs m2 as hm
      rw [h4, flagged_troubled h1]
      exact .lapse h2 hm

theorem protectSpec_ok {L : Lib} {f c rt pt rb c' r} (h : ProtectSpec L f c rt pt rb c' r)
    (hc : r.code = .ok) : ∃ S : Bytes, S.length = totalLen pt + 22 ∧ r.written = totalLen pt + 22 ∧
      r.out = .buf (S ++ rb.drop (totalLen pt + 22)) ∧ totalLen pt + 22 ≤ rb.length := by
  unfold ProtectSpec at h
  rcases h with ⟨_, _, g3⟩ | ⟨_, g2, ⟨_, _, g5⟩ | ⟨t, _, ⟨_, _, g6⟩ | ⟨_, _, _, _, g | ⟨_, g9, g10, g11⟩⟩⟩⟩
  · rw [g3] at hc; cases hc
  · rw [g5] at hc; cases hc
  · rw [g6] at hc; cases hc
  · exact absurd hc g.1
  · refine ⟨_, ?_, g10, g11, g2⟩
    rw [Frame.sealRecord_length]
    simp [Spec.innerPlaintext, g9.totalLen_eq]

end S2A.Record

namespace S2A.Frame
open Record (Acts)
open Spec (Machine AllocOk fragments recordCount statusOf)

theorem convertCode_eq (c : Record.Code) : convertCode c = statusOf c := by cases c <;> rfl

theorem sendAll_cons {L : Lib} {m m' : Machine} {x : Bytes} {xs : List Bytes} {room : Nat} {code w}
    (h : m.send L .applicationData x room = (m', code, w)) :
    m.sendAll L (x :: xs) room =
      if code = .ok then
        (let y := m'.sendAll L xs (room - w.length)
         (y.1, y.2.1, if y.2.1 = .ok then w ++ y.2.2 else []))
      else (m', statusOf code, []) := by
  rw [Machine.sendAll, h]
  cases code <;> simp only [if_true, reduceCtorEq, if_false]
  generalize m'.sendAll L xs (room - w.length) = y
  obtain ⟨a, b, c⟩ := y
  cases b <;> simp

theorem acts_protectLoop_or {L : Lib} {f : Nat → EvpFault} {id : BufId}
    (fuel i : Nat) (s : State) (m : Machine)
    (vs : List Iovec) (on : Nat) (first : Bool) (rem idx : Nat) (ob : Bytes)
    (a : Acts L s.conn m) (hw : AllWF vs) (hc : CurLe vs on) (hrem : rem + on = totalLen vs)
    (hfuel : rem + (if first then 1 else 0) < fuel) (hfirst : first = true → rem = 0)
    (hgo : first = true ∨ rem > 0) (hidx : idx ≤ ob.length) :
    (∃ s' out, protectLoop L f id fuel i s vs on first rem idx (.buf ob) =
        .ok (s', (m.sendAll L (fragments (ahead vs on)) (ob.length - idx)).2.1, out) ∧
      Acts L s'.conn (m.sendAll L (fragments (ahead vs on)) (ob.length - idx)).1 ∧
      ((m.sendAll L (fragments (ahead vs on)) (ob.length - idx)).2.1 = .ok →
        ∃ w, w = (m.sendAll L (fragments (ahead vs on)) (ob.length - idx)).2.2 ∧
          w.length = rem + 22 * recordCount rem ∧
          idx + w.length ≤ ob.length ∧
          out = .buf (ob.take idx ++ w ++ ob.drop (idx + w.length)))) ∨
    ((∃ j, f j ≠ .none) ∧ ∃ s' out m', protectLoop L f id fuel i s vs on first rem idx (.buf ob) =
        .ok (s', .internal, out) ∧
      m.SendFails L (fragments (ahead vs on)) (ob.length - idx) m' ∧ Acts L s'.conn m') := by
  induction fuel generalizing i s m vs on first rem idx ob with
  | zero => omega
  | succ fuel ih =>
    generalize hX : protectLoop L f id (fuel + 1) i s vs on first rem idx (.buf ob) = X
    unfold protectLoop at hX
    rw [if_pos (by simpa using hgo)] at hX
    have hN : ∃ N, N = (if rem < kMaxPlaintext then rem else kMaxPlaintext) ∧ N ≤ rem ∧ N ≤ 16384 ∧
        (rem ≤ 16384 → N = rem) ∧ (16384 < rem → N = 16384) := by
      refine ⟨_, rfl, ?_⟩
      simp only [kMaxPlaintext]
      split <;> refine ⟨?_, ?_, ?_, ?_⟩ <;> omega
    obtain ⟨N, hNe, hN1, hN2, hN3, hN4⟩ := hN
    simp only [← hNe] at hX
    obtain ⟨ps, vs', on', k1, k2, k3, k4, k5⟩ := collect_spec vs on N hc (by omega)
    obtain ⟨k6, k7, k8, k9⟩ := k5 hw
    rw [k1] at hX
    simp only [exec_bind_ok, Iovec.len, subSize_ok hidx] at hX
    have hsl : (Iovec.buf ob).slice idx (ob.length - idx) = .ok (.buf (ob.drop idx)) := by
      simp only [Iovec.slice]
      rw [if_pos (by omega), List.take_of_length_le (by simp)]
    rw [hsl, exec_bind_ok] at hX
    obtain ⟨c, r, e1, e2, e3⟩ := crypterProtect_spec L (f i) s ps (ob.drop idx) a.out.good.nonce
    have hgoes := Record.acts_send_or (f := f i) (rt := .applicationData)
      (record := .buf (ob.drop idx)) a k6 trivial
    have hlenB : (ahead vs on).length = rem := by
      unfold ahead; rw [List.length_drop, ← hw.totalLen_eq]; omega
    have hfr : fragments (ahead vs on) = flat ps ::
        (if rem ≤ 16384 then [] else fragments (ahead vs' on')) := by
      by_cases hle : rem ≤ 16384
      · rw [fragments_short (by omega), if_pos hle, k8, hN3 hle,
          List.take_of_length_le (by omega)]
      · rw [fragments_long (by omega), if_neg hle, k8, k9, hN4 (by omega)]
    have hroom : (Iovec.buf (ob.drop idx)).len = ob.length - idx := by simp [Iovec.len]
    rw [hroom] at hgoes
    rw [e1] at hX
    have hX : X = (if r.code ≠ .ok then
        (pure (({ s with conn := c, evs := s.evs ++ [.sealed r] } : State).destroy id
              (Iovec.buf (ob.take idx ++ r.out.bytes)).len, convertCode r.code,
              .buf (ob.take idx ++ r.out.bytes)) : Exec (State × StatusCode × Iovec))
        else if r.written ≠ N + 22 then
      pure (({ s with conn := c, evs := s.evs ++ [.sealed r] } : State).destroy id
              (Iovec.buf (ob.take idx ++ r.out.bytes)).len, .internal,
              .buf (ob.take idx ++ r.out.bytes)) else
      protectLoop L f id fuel (i + 1)
            { s with conn := c, evs := s.evs ++ [.sealed r] } vs' on' false (rem - N)
              (idx + r.written) (.buf (ob.take idx ++ r.out.bytes))) := hX.symm
    rcases hgoes with hgoes | ⟨hfi, c0, r0, m', q1, ⟨q2, q3⟩, q4, q5⟩
    case inr =>
      rw [e2] at q1
      injection q1 with q1
      injection q1 with q1 q1'
      subst q1; subst q1'
      rw [if_pos (by rw [q2]; simp)] at hX
      refine Or.inr ⟨⟨i, hfi⟩, _, _, m', by rw [hX, q2]; rfl, ?_, q5⟩
      rw [hfr]
      exact .here q3
    generalize hy : m.send L .applicationData (flat ps) (ob.length - idx) = y at hgoes
    obtain ⟨m1, code, w⟩ := y
    obtain ⟨c0, r0, q1, q2, q3, q4⟩ := hgoes
    rw [e2] at q1
    injection q1 with q1
    injection q1 with q1 q1'
    subst q1; subst q1'
    have hsa := sendAll_cons (L := L) (m := m) (x := flat ps)
      (xs := if rem ≤ 16384 then [] else fragments (ahead vs' on')) (room := ob.length - idx) hy
    rw [← hfr] at hsa
    subst q2
    by_cases hcode : r.code = .ok
    case neg =>
      rw [if_neg hcode] at hsa
      rw [if_pos hcode] at hX
      rw [hsa]
      refine Or.inl ⟨_, _, by rw [hX, convertCode_eq]; rfl, q4, ?_⟩
      intro h
      simp only at h
      rw [← convertCode_eq, convertCode_ok] at h
      exact absurd h hcode
    obtain ⟨S, p1, p2, p3, p4⟩ := Record.protectSpec_ok e3 hcode
    rw [k2] at p1 p2 p3 p4
    rw [if_pos hcode] at hsa
    rw [if_neg (not_not_intro hcode), if_neg (not_not_intro p2)] at hX
    have hwS : w = S := by
      rw [← q3, p2, p3, ← p1]
      simp [Iovec.bytes]
    subst hwS
    have hob : r.out.bytes = w ++ ob.drop (idx + (N + 22)) := by
      rw [p3]; simp [Iovec.bytes, List.drop_drop]
    simp only [List.length_drop] at p4
    have hlen : (ob.take idx ++ r.out.bytes).length = ob.length := by
      rw [hob]; simp [p1]; omega
    by_cases hle : rem ≤ 16384
    · obtain rfl := hN3 hle
      rw [if_pos hle] at hsa
      simp only [Machine.sendAll, if_true, List.append_nil] at hsa
      rw [hsa]
      obtain ⟨fuel', rfl⟩ : ∃ k, fuel = k + 1 := ⟨fuel - 1, by
        rcases hgo with h | h
        · rw [h, if_pos rfl] at hfuel; omega
        · omega⟩
      unfold protectLoop at hX
      rw [if_neg (by simp)] at hX
      refine Or.inl ⟨_, _, hX, q4, fun _ => ⟨w, rfl, ?_, by omega, ?_⟩⟩
      · rw [recordCount_short hle]; omega
      · rw [hob, p1, List.append_assoc]
    · have hNr := hN4 (by omega)
      rw [if_neg hle] at hsa
      have hih := ih (i + 1)
        { s with conn := c, evs := s.evs ++ [.sealed r] } m1 vs' on' false (rem - N)
        (idx + r.written) (ob.take idx ++ r.out.bytes) q4 k7 k3 (by omega)
        (by simp; split at hfuel <;> omega) (by simp) (Or.inr (by omega)) (by rw [hlen, p2]; omega)
      have hroom' : (ob.take idx ++ r.out.bytes).length - (idx + r.written) =
          ob.length - idx - w.length := by rw [hlen]; omega
      rw [hroom'] at hih
      simp only at hsa
      rcases hih with ⟨s', out, z1, z2, z3⟩ | ⟨z1, s', out, m', z2, z3, z4⟩
      case inr =>
        refine Or.inr ⟨z1, s', out, m', hX.trans z2, ?_, z4⟩
        rw [hfr, if_neg hle]
        rw [hcode] at hy
        exact .later hy z3
      rw [hsa]
      refine Or.inl ⟨s', out, hX.trans z1, z2, ?_⟩
      intro hok
      simp only at hok
      obtain ⟨w', y1, y2, y3, y4⟩ := z3 hok
      simp only
      rw [if_pos hok]
      refine ⟨w ++ w', by rw [← y1], ?_, ?_, ?_⟩
      · rw [recordCount_long (by omega : 16384 < rem)]
        rw [List.length_append, y2, p1, hNr]; omega
      · rw [hlen] at y3; simp; omega
      · rw [y4, hob, p2]
        have t1 : (ob.take idx ++ (w ++ ob.drop (idx + (N + 22)))).take (idx + (N + 22)) =
            ob.take idx ++ w := by
          rw [← List.append_assoc]
          exact List.take_left' (by simp [p1]; omega)
        have t2 : (ob.take idx ++ (w ++ ob.drop (idx + (N + 22)))).drop
            (idx + (N + 22) + w'.length) = ob.drop (idx + (w ++ w').length) := by
          rw [← List.append_assoc, ← List.drop_drop,
            List.drop_left' (by simp [p1]; omega), List.drop_drop]
          congr 1
          simp [p1]; omega
        rw [t1, t2]
        simp [List.append_assoc]

theorem send_small {L : Lib} {m : Machine} {x : Bytes} {room : Nat} (h : room < x.length + 22) :
    m.send L .applicationData x room = (m, .failedPrecondition, []) := by
  unfold Machine.send
  rw [if_pos (Or.inr h)]

theorem fragments_cons (b : Bytes) : ∃ x xs, fragments b = x :: xs ∧ x = b.take 16384 := by
  by_cases h : b.length ≤ 16384
  · rw [fragments_short h]
    exact ⟨b, [], rfl, (List.take_of_length_le h).symm⟩
  · rw [fragments_long (by omega)]
    exact ⟨_, _, rfl, rfl⟩

theorem acts_protectInto_or {L : Lib} {f : Nat → EvpFault} {id : BufId}
    {s : State} {m : Machine} {vs : List Iovec} {out : Iovec} (a : Acts L s.conn m)
    (hw : AllWF vs) (ho : out.WF) :
    (∃ s' out', protectInto L f s id vs out =
        .ok (s', (m.protect L (flat vs) out.len).2.1, out') ∧
      Acts L s'.conn (m.protect L (flat vs) out.len).1 ∧
      ((m.protect L (flat vs) out.len).2.1 = .ok →
        ∃ w, w = (m.protect L (flat vs) out.len).2.2 ∧
          w.length = (flat vs).length + 22 * recordCount (flat vs).length ∧
          out'.bytes = w ++ out.bytes.drop w.length)) ∨
    ((∃ j, f j ≠ .none) ∧ ∃ s' out' m', protectInto L f s id vs out = .ok (s', .internal, out') ∧
      m.SendFails L (fragments (flat vs)) out.len m' ∧ Acts L s'.conn m') := by
  unfold protectInto Machine.protect
  simp only
  cases out with
  | buf ob =>
    have := acts_protectLoop_or (f := f) (id := id) (totalLen vs + 2) 0 s m vs 0 (decide (totalLen vs = 0))
      (totalLen vs) 0 ob a hw (curLe_start vs) (by omega) (by split <;> omega) (by simp)
      (by simp; omega) (by omega)
    simp only [ahead, List.drop_zero, Nat.sub_zero] at this
    rcases this with ⟨s', out', h1, h2, h3⟩ | ⟨h0, s', out', m', h1, h2, h3⟩
    case inr => exact Or.inr ⟨h0, s', out', m', h1, h2, h3⟩
    refine Or.inl ⟨s', out', h1, h2, fun hok => ?_⟩
    obtain ⟨w, g1, g2, g3, g4⟩ := h3 hok
    refine ⟨w, g1, by rw [g2, ← hw.totalLen_eq], ?_⟩
    rw [g4]
    simp [Iovec.bytes]
  | null n =>
    simp only [Iovec.WF] at ho
    subst ho
    obtain ⟨x, xs, h1, h2⟩ := fragments_cons (flat vs)
    have hsend := send_small (L := L) (m := m) (x := x) (room := 0) (by omega)
    have hsa := sendAll_cons (L := L) (m := m) (xs := xs) hsend
    rw [if_neg (by simp)] at hsa
    simp only [Iovec.len, h1]
    rw [hsa]
    unfold protectLoop
    rw [if_pos (by simp; omega)]
    have hN : ∃ N, N = (if totalLen vs < kMaxPlaintext then totalLen vs else kMaxPlaintext) ∧
        N ≤ totalLen vs := by
      refine ⟨_, rfl, ?_⟩
      split <;> omega
    obtain ⟨N, hNe, hN1⟩ := hN
    simp only [← hNe]
    obtain ⟨ps, vs', on', k1, k2, k3, k4, k5⟩ := collect_spec vs 0 N (curLe_start vs) (by omega)
    obtain ⟨k6, _⟩ := k5 hw
    rw [k1]
    have hgoes := Record.acts_send_or (f := f 0) (rt := .applicationData) (record := .null 0) a k6 rfl
    rw [show (Iovec.null 0).len = 0 from rfl, send_small (by omega)] at hgoes
    rcases hgoes with ⟨c, r, q1, q2, q3, q4⟩ | ⟨_, _, _, _, _, ⟨_, q, _⟩, _⟩
    case inr =>
      rw [send_small (by omega)] at q
      cases q
    have hsub : subSize 0 0 = .ok 0 := rfl
    have hsl : (Iovec.null 0).slice 0 0 = .ok (.null 0) := rfl
    simp only [exec_bind_ok, Iovec.len, hsub, hsl, State.crypterProtect, q1, exec_pure, q2]
    exact Or.inl ⟨_, _, rfl, q4, fun h => by cases h⟩

theorem handOut_eq (x : Machine × StatusCode × Bytes) :
    Spec.handOut x = (x.1, x.2.1, if x.2.1 = .ok then [x.2.2] else []) := by
  obtain ⟨m, st, w⟩ := x
  cases st <;> rfl

/-- The outcome of a call on a frame protector is the one the machine says. -/
def Answers (L : Lib) (op : Op) (o : Option (Machine × Spec.FrameAnswer))
    (x : Exec (State × Event)) : Prop :=
  match o with
  | none => x = .error .negativeShift
  | some (m, ans) => ∃ s e, x = .ok (s, e) ∧ Sees op e ans ∧ Acts L s.conn m

theorem destroy_conn (s : State) (id : BufId) (n : Nat) : (s.destroy id n).conn = s.conn := rfl

theorem destroyAll_conn (s : State) (l : List (BufId × Bytes)) :
    (s.destroyAll l).conn = s.conn := by
  induction l generalizing s with
  | nil => rfl
  | cons x l ih => obtain ⟨id, b⟩ := x; exact ih _

theorem len_of_protectLoop {L : Lib} {f : Nat → EvpFault} {id : BufId} {s s' : State}
    {vs : List Iovec} {ob : Bytes} {st out'} (hn : s.conn.outC.nonce.length = 12)
    (h : protectInto L f s id vs (.buf ob) = .ok (s', st, out')) : out'.len = ob.length := by
  obtain ⟨s1, st1, ob1, e1, e2, _⟩ := protectLoop_spec L f id (totalLen vs + 2) 0 s vs 0
    (decide (totalLen vs = 0)) (totalLen vs) 0 ob hn (curLe_start vs) (by omega)
    (by split <;> omega) (by simp) (by omega)
  unfold protectInto at h
  simp only at h
  rw [e1] at h
  cases h
  exact e2

theorem acts_protectCall_or {L : Lib} {A : Allocator} (hA : AllocOk A) {s : State} {m : Machine}
    {f : Nat → EvpFault} {vs : List Iovec} (a : Acts L s.conn m)
    (hw : AllWF vs) :
    (∃ s' r, protect L A f s vs = .ok (s', r) ∧
      (r.status, r.bytes.map (·.2)) = (Spec.handOut (m.protect L (flat vs)
        ((flat vs).length + 22 * recordCount (flat vs).length))).2 ∧
      Acts L s'.conn (Spec.handOut (m.protect L (flat vs)
        ((flat vs).length + 22 * recordCount (flat vs).length))).1) ∨
    ((∃ j, f j ≠ .none) ∧ ∃ s' m', protect L A f s vs = .ok (s', ⟨.internal, []⟩) ∧
      m.SendFails L (fragments (flat vs)) ((flat vs).length + 22 * recordCount (flat vs).length) m' ∧
      Acts L s'.conn m') := by
  unfold protect
  rw [numberBytesToProtect_eq, hw.totalLen_eq, handOut_eq]
  generalize hn : (flat vs).length + 22 * recordCount (flat vs).length = n
  obtain ⟨d, hd1, hd2⟩ := hA s.next n
  simp only [State.alloc, hd1]
  have := acts_protectInto_or (f := f) (id := .heap s.next) (s := { s with next := s.next + 1, mem := s.mem ++ [.alloc (.heap s.next) n] }) (out := .buf d) a hw trivial
  simp only [Iovec.len, hd2] at this
  rcases this with ⟨s', out', h1, h2, h3⟩ | ⟨h0, s', out', m', h1, h2, h3⟩
  case inr =>
    refine Or.inr ⟨h0, s'.destroy (.heap s.next) out'.len, m', ?_, h2, h3⟩
    rw [h1, exec_bind_ok, if_pos (by simp)]
    rfl
  left
  rw [h1]
  simp only [exec_bind_ok]
  by_cases hok : (m.protect L (flat vs) n).2.1 = .ok
  · rw [if_neg (not_not_intro hok), if_pos hok]
    refine ⟨_, _, rfl, ?_, h2⟩
    obtain ⟨w, g1, g2, g3⟩ := h3 hok
    rw [hok, g1.symm, g3]
    simp only [List.map_cons, List.map_nil, Iovec.bytes]
    rw [List.drop_of_length_le (by omega), List.append_nil]
  · rw [if_pos hok, if_neg hok]
    exact ⟨_, _, rfl, rfl, h2⟩

theorem unprotectAll_succ {L : Lib} {m : Machine} {fuel : Nat} {b : Bytes} (h : ¬ b.length < 22) :
    m.unprotectAll L (fuel + 1) b =
      match Spec.firstRecord b with
      | none => some (m, .failedPrecondition, [])
      | some (header, payload, rest) =>
        (m.receive L header payload payload.length).bind fun (m, code, x) =>
          if code = .ok then
            (m.unprotectAll L fuel rest).map fun (m, st, xs) =>
              (m, st, if st = .ok then x :: xs else [])
          else some (m, statusOf code, []) := by
  rw [Machine.unprotectAll, if_neg h]
  cases Spec.firstRecord b with
  | none => rfl
  | some y =>
    obtain ⟨hd, payload, rest⟩ := y
    simp only
    generalize m.receive L hd payload payload.length = o
    cases o with
    | none => rfl
    | some y =>
      obtain ⟨m', code, x⟩ := y
      cases code <;> simp only [Option.bind_some, if_true, reduceCtorEq, if_false]
      generalize m'.unprotectAll L fuel rest = o
      cases o with
      | none => rfl
      | some y => obtain ⟨m2, st, xs⟩ := y; cases st <;> rfl

theorem unprotectAll_fail {L : Lib} {fuel : Nat} : ∀ {m m' : Machine} {b : Bytes} {st xs},
    m.unprotectAll L fuel b = some (m', st, xs) → st ≠ .ok → xs = [] := by
  intro m m' b st xs h hst
  cases fuel with
  | zero =>
    cases h
    exact absurd rfl hst
  | succ fuel =>
    by_cases hb : b.length < 22
    · rw [Machine.unprotectAll, if_pos hb] at h
      cases h
      exact absurd rfl hst
    rw [unprotectAll_succ hb] at h
    generalize Spec.firstRecord b = o at h
    cases o with
    | none => cases h; rfl
    | some y =>
      obtain ⟨hd, payload, rest⟩ := y
      simp only at h
      generalize m.receive L hd payload payload.length = o at h
      cases o with
      | none => cases h
      | some y =>
        obtain ⟨m1, code, x⟩ := y
        simp only [Option.bind_some] at h
        by_cases hc : code = .ok
        · rw [if_pos hc] at h
          generalize m1.unprotectAll L fuel rest = o at h
          cases o with
          | none => cases h
          | some y =>
            obtain ⟨m2, st2, ys⟩ := y
            simp only [Option.map_some, Option.some.injEq, Prod.mk.injEq] at h
            obtain ⟨_, rfl, h⟩ := h
            rw [if_neg hst] at h
            exact h.symm
        · rw [if_neg hc] at h
          cases h
          rfl

theorem _root_.S2A.Spec.AllocOk.roomy {A : Allocator} (h : AllocOk A) : Spec.Roomy A := fun i n => by
  obtain ⟨d, h1, h2⟩ := h i n
  exact ⟨d, h1, by omega⟩

/-- Room beyond the size of the payload makes no difference. -/
theorem receive_room {L : Lib} {m : Machine} {header payload : Bytes} {room : Nat}
    (h : payload.length ≤ room) :
    m.receive L header payload room = m.receive L header payload payload.length := by
  unfold Machine.receive
  have h1 : ¬ room + 16 < payload.length := by omega
  have h2 : ¬ payload.length + 16 < payload.length := by omega
  simp only [if_neg h1, if_neg h2]

theorem lapse_room {L : Lib} {m m' : Machine} {header payload : Bytes} {room : Nat}
    (h : m.Lapse L (.receive header payload room) m') :
    m.Lapse L (.receive header payload payload.length) m' := by
  obtain ⟨h1, h2⟩ := h
  refine ⟨h1, h2.imp id ?_⟩
  rintro ⟨inner, content, _, h4⟩
  exact ⟨inner, content, by omega, h4⟩

/-- The loop of `Unprotect`. -/
theorem acts_unprotectLoop_or {L : Lib} {A : Allocator} (hA : Spec.Roomy A)
    {f : Nat → Record.Fault} (fuel k i : Nat) (s : State) (m : Machine)
    (vs : List Iovec) (on rem : Nat) (done : List (BufId × Bytes))
    (a : Acts L s.conn m) (hc : Cursor vs on) (hrem : rem = (ahead vs on).length)
    (hfuel : rem < fuel) (hk : rem ≤ k) :
    (match m.unprotectAll L k (ahead vs on) with
    | none => unprotectLoop L A f fuel i s vs on rem done = .error .negativeShift
    | some (m', st, xs) => ∃ s' r, unprotectLoop L A f fuel i s vs on rem done = .ok (s', r) ∧
        r.status = st ∧
        (r.bytes.map (·.2)) = (if st = .ok then done.map (·.2) ++ xs else []) ∧
        Acts L s'.conn m') ∨
    ((∃ j, f j ≠ .none) ∧ ∃ s' m', unprotectLoop L A f fuel i s vs on rem done =
        .ok (s', ⟨.internal, []⟩) ∧
      m.ReceiveFails L (ahead vs on) m' ∧ Acts L s'.conn m') := by
  induction fuel generalizing k i s m vs on rem done with
  | zero => omega
  | succ fuel ih =>
    by_cases hge : rem ≥ s.conn.recordOverhead
    case neg =>
      rw [unprotectLoop, if_neg hge]
      have hlt : (ahead vs on).length < 22 := by rw [Record.recordOverhead_eq] at hge; omega
      have : m.unprotectAll L k (ahead vs on) = some (m, .ok, []) := by
        cases k with
        | zero => rfl
        | succ k => rw [Machine.unprotectAll, if_pos hlt]
      rw [this]
      exact Or.inl ⟨_, _, rfl, rfl, by simp, a⟩
    have hge' : ¬ (ahead vs on).length < 22 := by rw [Record.recordOverhead_eq] at hge; omega
    obtain ⟨k, rfl⟩ : ∃ j, k = j + 1 := ⟨k - 1, by omega⟩
    rw [unprotectAll_succ hge']
    rcases walk_spec vs on hc with ⟨hno, hw⟩ | ⟨hd, payload, rest, vs1, on1, ps, vs', on2, hfr, k1, k2, k3, k4, k5, k6, k7⟩
    · rw [hno, unprotectLoop_stop L A f fuel i s vs on rem done hc hge hno]
      exact Or.inl ⟨_, _, rfl, rfl, by simp, a⟩
    rw [hfr]
    simp only
    rw [unprotectLoop, if_pos hge]
    obtain ⟨d, hd1, hd2⟩ := hA s.next payload.length
    obtain ⟨hsplit, hwhole⟩ := firstRecord_some hfr
    rw [k3] at k2
    have hgoes := Record.acts_receive_or (f := f i) (header := .buf hd) (payload := ps) (out := .buf d) a trivial
      k5 trivial
    rw [k4] at hgoes
    simp only [Iovec.bytes, Iovec.len, receive_room hd2] at hgoes
    simp only [k1, exec_bind_ok, k3, k2, State.alloc, hd1, State.crypterUnprotect]
    rcases hgoes with hgoes | ⟨hfi, c, r, m', q1, ⟨q2, q3⟩, q4, q5⟩
    case inr =>
      refine Or.inr ⟨⟨i, hfi⟩, ?_⟩
      simp only [q1, exec_bind_ok, exec_pure]
      rw [if_pos (by rw [q2]; simp)]
      refine ⟨_, m', by rw [q2]; rfl, .here (by omega) hfr (lapse_room q3), ?_⟩
      rw [destroyAll_conn, destroy_conn]; exact q5
    generalize hrec : m.receive L hd payload payload.length = o at hgoes
    cases o with
    | none =>
      left
      have hgoes : Record.unprotect L (f i) s.conn (.buf hd) ps (.buf d) = .error .negativeShift := hgoes
      simp only [hgoes, Option.bind_none]
      rfl
    | some y =>
      obtain ⟨m1, code, x⟩ := y
      obtain ⟨c, r, e1, e2, e3, e4⟩ := hgoes
      simp only [e1, exec_bind_ok, exec_pure, Option.bind_some]
      subst e2
      by_cases hcode : r.code = .ok
      case neg =>
        left
        simp only [if_neg hcode]
        rw [if_pos (show r.code ≠ .ok from hcode)]
        refine ⟨_, _, rfl, convertCode_eq _, ?_, ?_⟩
        · rw [if_neg]
          · rfl
          · rw [← convertCode_eq, convertCode_ok]; exact hcode
        · rw [destroyAll_conn, destroy_conn]; exact e4
      simp only [if_pos hcode]
      rw [if_neg (not_not_intro hcode)]
      have hspl : rem = 5 + payload.length + rest.length := by
        rw [hrem, hsplit]
        have : hd.length = 5 := by rw [hwhole.header]; rfl
        simp [this]
        omega
      simp only [subSize_ok (show kHeaderLength + payload.length ≤ rem by simp [kHeaderLength]; omega), exec_bind_ok]
      have := ih k (i + 1) { conn := c, maxRecordSize := s.maxRecordSize, next := s.next + 1, mem := s.mem ++ [.alloc (.heap s.next) payload.length], evs := s.evs ++ [.opened r] } m1 vs' on2
        (rem - (kHeaderLength + payload.length)) (done ++ [(.heap s.next, r.out.bytes.take r.written)])
        e4 k6 (by rw [k7, hspl]; simp [kHeaderLength]) (by simp [kHeaderLength]; omega)
        (by simp [kHeaderLength]; omega)
      rw [k7] at this
      rcases this with this | ⟨z1, s', m', z2, z3, z4⟩
      case inr =>
        rw [hcode] at hrec
        exact Or.inr ⟨z1, s', m', z2, .later (by omega) hfr hrec z3, z4⟩
      left
      generalize m1.unprotectAll L k rest = o at this
      cases o with
      | none => exact this
      | some y =>
        obtain ⟨m2, st, xs⟩ := y
        obtain ⟨s', r', g1, g2, g3, g4⟩ := this
        simp only [Option.map_some]
        refine ⟨s', r', g1, g2, ?_, g4⟩
        rw [g3]
        by_cases hst : st = .ok
        · simp [hst, e3]
        · simp [hst]

theorem unprotectFirst_eq {L : Lib} {m : Machine} {b : Bytes} {room : Nat} :
    m.unprotectFirst L b room =
      if b.length < 22 then some (m, .failedPrecondition, [])
      else match Spec.firstRecord b with
      | none => some (m, .failedPrecondition, [])
      | some (header, payload, _) =>
        (m.receive L header payload room).map fun (m, code, x) =>
          if code = .ok then (m, .ok, [x]) else (m, statusOf code, []) := by
  unfold Machine.unprotectFirst
  by_cases h : b.length < 22
  · rw [if_pos h, if_pos h]
  rw [if_neg h, if_neg h]
  cases Spec.firstRecord b with
  | none => rfl
  | some y =>
    obtain ⟨hd, payload, rest⟩ := y
    simp only
    generalize m.receive L hd payload room = o
    cases o with
    | none => rfl
    | some y =>
      obtain ⟨m', code, x⟩ := y
      cases code <;> rfl

/-- One call in which the library may fail, other than the `Protect` that allocates. -/
theorem acts_frameStep_roomy {L : Lib} {A : Allocator} (hA : Spec.Roomy A) {s : State} {m : Machine}
    {op : Op} (a : Acts L s.conn m) (hf : op.Usable) (hop : ∀ f vs, op ≠ .protect f vs) :
    Answers L op (m.frameStep L op.plain) (step L A s op) ∨
    (op.Troubled ∧ ∃ m' s' e, m.FrameLapse L op.plain m' ∧ step L A s op = .ok (s', e) ∧
      Sees op e (.internal, []) ∧ Acts L s'.conn m') := by
  cases op with
  | protect f vs => exact absurd rfl (hop f vs)
  | protectInto f vs out =>
    obtain ⟨h2, h3⟩ := hf
    rcases acts_protectInto_or (f := f) (id := .caller) a h2 h3 with ⟨s', out', e1, e2, e3⟩ |
      ⟨h0, s', out', m', e1, e2, e3⟩
    case inr =>
      refine Or.inr ⟨h0, m', s', .status .internal out'.len out', e2, ?_,
        ⟨rfl, fun h => by cases h⟩, e3⟩
      simp only [step, e1, exec_bind_ok, exec_pure]
    left
    simp only [step, e1, exec_bind_ok, Op.plain, Machine.frameStep, handOut_eq]
    refine ⟨_, _, rfl, ⟨rfl, fun hok => ?_⟩, e2⟩
    obtain ⟨w, g1, g2, g3⟩ := e3 hok
    simp only [if_pos hok]
    rw [← g1]
    refine ⟨?_, by simpa using g3⟩
    cases out with
    | buf ob => exact len_of_protectLoop a.out.good.nonce e1
    | null n =>
      simp only [Iovec.WF] at h3
      subst h3
      obtain ⟨x, xs, i1, i2⟩ := fragments_cons (flat vs)
      have hsa := sendAll_cons (L := L) (m := m) (xs := xs)
        (send_small (L := L) (m := m) (x := x) (room := 0) (by omega))
      rw [if_neg (by simp)] at hsa
      simp only [Machine.protect, i1, Iovec.len] at hok
      rw [hsa] at hok
      cases hok
  | unprotect f vs =>
    have h2 : Spec.NonEmptyBufs vs := hf
    simp only [step, Op.plain, Machine.frameStep, Machine.unprotect, unprotect, h2.wf.totalLen_eq]
    by_cases hlt : (flat vs).length < 22
    · rw [if_pos hlt, if_pos (show (flat vs).length < s.conn.recordOverhead from hlt)]
      exact Or.inl ⟨_, _, rfl, ⟨rfl, rfl⟩, a⟩
    rw [if_neg hlt, if_neg (show ¬ (flat vs).length < s.conn.recordOverhead from hlt)]
    have := acts_unprotectLoop_or (f := f) hA ((flat vs).length + 1) (flat vs).length 0 s m vs 0
      (flat vs).length [] a (cursor_start h2) (by simp [ahead]) (by omega) (by omega)
    rw [show ahead vs 0 = flat vs from rfl] at this
    rcases this with this | ⟨z1, s', m', z2, z3, z4⟩
    case inr =>
      refine Or.inr ⟨z1, m', s', .result ⟨.internal, []⟩, z3, ?_, ⟨rfl, rfl⟩, z4⟩
      rw [z2]; rfl
    left
    generalize hall : m.unprotectAll L (flat vs).length (flat vs) = o at this
    cases o with
    | none => simp only at this; rw [this]; rfl
    | some y =>
      obtain ⟨m', st, xs⟩ := y
      obtain ⟨s', r, g1, g2, g3, g4⟩ := this
      rw [g1]
      refine ⟨_, _, rfl, ⟨g2, ?_⟩, g4⟩
      rw [g3]
      by_cases hst : st = .ok
      · simp [hst]
      · rw [if_neg hst, unprotectAll_fail hall hst]
  | unprotectInto f vs out =>
    obtain ⟨h2, h3⟩ := hf
    simp only [step, Op.plain, Machine.frameStep, unprotectFirst_eq, unprotectInto,
      h2.wf.totalLen_eq]
    by_cases hlt : (flat vs).length < 22
    · rw [if_pos hlt, if_pos (show numberBytesToUnprotect s (flat vs).length = 0 from if_pos hlt)]
      exact Or.inl ⟨_, _, rfl, ⟨rfl, fun h => by cases h⟩, a⟩
    have hz : ¬ numberBytesToUnprotect s (flat vs).length = 0 := by
      unfold numberBytesToUnprotect
      rw [if_neg (show ¬ (flat vs).length < s.conn.recordOverhead from hlt)]
      simp only [kHeaderLength]
      omega
    rw [if_neg hlt, if_neg hz]
    rcases walk_spec vs 0 (cursor_start h2) with ⟨hno, hw⟩ |
      ⟨hd, payload, rest, vs1, on1, ps, vs', on2, hfr, k1, k2, k3, k4, k5, k6, k7⟩
    · rw [show ahead vs 0 = flat vs from rfl] at hno
      rw [hno]
      rcases hw with hw | ⟨hd, vs1, on1, hw, hw2⟩
      · rw [hw]
        exact Or.inl ⟨_, _, rfl, ⟨rfl, fun h => by cases h⟩, a⟩
      · rw [hw]
        simp only [exec_bind_ok, hw2]
        exact Or.inl ⟨_, _, rfl, ⟨rfl, fun h => by cases h⟩, a⟩
    rw [show ahead vs 0 = flat vs from rfl] at hfr
    rw [hfr]
    simp only [k1, exec_bind_ok, k2, State.crypterUnprotect]
    have hgoes := Record.acts_receive_or (f := f) (header := .buf hd) (payload := ps) a trivial k5 h3
    rw [k4, show (Iovec.buf hd).bytes = hd from rfl] at hgoes
    rcases hgoes with hgoes | ⟨hfi, c, r, m', q1, ⟨q2, q3⟩, q4, q5⟩
    case inr =>
      simp only [q1, exec_bind_ok, exec_pure]
      rw [if_pos (by rw [q2]; simp)]
      refine Or.inr ⟨hfi, m', { s with conn := c, evs := s.evs ++ [.opened r] },
        .status .internal 0 r.out, ⟨by omega, hd, payload, rest, hfr, q3⟩, by rw [q2]; rfl,
        ⟨rfl, fun h => by cases h⟩, q5⟩
    left
    generalize m.receive L hd payload out.len = o at hgoes
    cases o with
    | none =>
      have hgoes : Record.unprotect L f s.conn (.buf hd) ps out = .error .negativeShift := hgoes
      rw [hgoes]
      rfl
    | some y =>
      obtain ⟨m1, code, x⟩ := y
      obtain ⟨c, r, e1, e2, e3, e4⟩ := hgoes
      simp only [e1, exec_bind_ok, exec_pure, Option.map_some]
      subst e2
      by_cases hcode : r.code = .ok
      · rw [if_neg (not_not_intro hcode), if_pos hcode]
        exact ⟨_, _, rfl, ⟨rfl, fun _ => by simpa using e3⟩, e4⟩
      · rw [if_pos (show r.code ≠ .ok from hcode), if_neg hcode]
        refine ⟨_, _, rfl, ⟨convertCode_eq _, fun h => ?_⟩, e4⟩
        rw [convertCode_ok] at h
        exact absurd h hcode

/-- One call in which the library may fail. -/
theorem acts_frameStep_or {L : Lib} {A : Allocator} (hA : AllocOk A) {s : State} {m : Machine}
    {op : Op} (a : Acts L s.conn m) (hf : op.Usable) :
    Answers L op (m.frameStep L op.plain) (step L A s op) ∨
    (op.Troubled ∧ ∃ m' s' e, m.FrameLapse L op.plain m' ∧ step L A s op = .ok (s', e) ∧
      Sees op e (.internal, []) ∧ Acts L s'.conn m') := by
  cases op with
  | protect f vs =>
    rcases acts_protectCall_or (f := f) hA a hf with ⟨s', r, e1, e2, e3⟩ | ⟨h0, s', m', e1, e2, e3⟩
    case inr =>
      refine Or.inr ⟨h0, m', s', .result ⟨.internal, []⟩, e2, ?_, ⟨rfl, rfl⟩, e3⟩
      simp only [step, e1, exec_bind_ok, exec_pure]
    left
    simp only [step, e1, exec_bind_ok]
    exact ⟨_, _, rfl, ⟨congrArg Prod.fst e2, congrArg Prod.snd e2⟩, e3⟩
  | protectInto f vs out => exact acts_frameStep_roomy hA.roomy a hf (by simp)
  | unprotect f vs => exact acts_frameStep_roomy hA.roomy a hf (by simp)
  | unprotectInto f vs out => exact acts_frameStep_roomy hA.roomy a hf (by simp)

theorem fine_usable {op : Op} (h : op.Fine) : op.Usable ∧ ¬ op.Troubled := by
  cases op with
  | protect f vs => exact ⟨h.2, fun ⟨j, hj⟩ => hj (h.1 j)⟩
  | protectInto f vs out => exact ⟨h.2, fun ⟨j, hj⟩ => hj (h.1 j)⟩
  | unprotect f vs => exact ⟨h.2, fun ⟨j, hj⟩ => hj (h.1 j)⟩
  | unprotectInto f vs out => exact ⟨h.2, fun hj => hj h.1⟩

theorem acts_frameStep {L : Lib} {A : Allocator} (hA : AllocOk A) {s : State} {m : Machine}
    {op : Op} (a : Acts L s.conn m) (hf : op.Fine) :
    Answers L op (m.frameStep L op.plain) (step L A s op) := by
  rcases acts_frameStep_or hA a (fine_usable hf).1 with h | h
  · exact h
  · exact absurd h.1 (fine_usable hf).2

theorem flagged_troubled {op : Op} (h : op.Troubled) : op.flagged = (op.plain, true) := by
  unfold Op.flagged; simp [h]

/-- A history in which the library may fail. -/
theorem acts_frameRun_may {L : Lib} {A : Allocator} (hA : AllocOk A) {ops : List Op} :
    ∀ {s : State} {m : Machine}, Acts L s.conn m → (∀ op ∈ ops, op.Usable) →
    (∃ m' as s' es, run L A s ops = .ok (s', es) ∧ SeesAll ops es as ∧ Acts L s'.conn m' ∧
      Machine.FrameMay L m (ops.map Op.flagged) m' as) ∨
    (run L A s ops = .error .negativeShift ∧ ∃ pre op suf m' as, ops = pre ++ op :: suf ∧
      Machine.FrameMay L m (pre.map Op.flagged) m' as ∧ m'.frameStep L op.plain = none) := by
  induction ops with
  | nil => intro s m a _; exact Or.inl ⟨m, [], s, [], rfl, trivial, a, .nil m⟩
  | cons op ops ih =>
    intro s m a hu
    have next : ∀ {m1 s1 e ans}, step L A s op = .ok (s1, e) → Sees op e ans → Acts L s1.conn m1 →
        (∀ {xs m2 as}, Machine.FrameMay L m1 xs m2 as →
          Machine.FrameMay L m (op.flagged :: xs) m2 (ans :: as)) →
        (∃ m' as s' es, run L A s (op :: ops) = .ok (s', es) ∧ SeesAll (op :: ops) es as ∧
          Acts L s'.conn m' ∧ Machine.FrameMay L m ((op :: ops).map Op.flagged) m' as) ∨
        (run L A s (op :: ops) = .error .negativeShift ∧ ∃ pre o suf m' as,
          op :: ops = pre ++ o :: suf ∧
          Machine.FrameMay L m (pre.map Op.flagged) m' as ∧ m'.frameStep L o.plain = none) := by
      intro m1 s1 e ans h1 h0 h2 h3
      simp only [run, h1, exec_bind_ok]
      rcases ih h2 (fun op h => hu op (by simp [h])) with ⟨m', as, s', es, g1, g2, g3, g4⟩ |
        ⟨g1, pre, o, suf, m', as, g2, g3, g4⟩
      · refine Or.inl ⟨m', ans :: as, s', e :: es, ?_, ⟨h0, g2⟩, g3, h3 g4⟩
        rw [g1]; rfl
      · refine Or.inr ⟨by rw [g1]; rfl, op :: pre, o, suf, m', ans :: as, by rw [g2]; rfl, h3 g3, g4⟩
    rcases acts_frameStep_or (op := op) hA a (hu op (by simp)) with h | ⟨h1, m1, s1, e, h2, h3, h4, h5⟩
    · generalize hs : m.frameStep L op.plain = o at h
      cases o with
      | none =>
        have h : step L A s op = .error .negativeShift := h
        refine Or.inr ⟨?_, [], op, ops, m, [], rfl, .nil m, hs⟩
        simp only [run, h]; rfl
      | some y =>
        obtain ⟨m1, ans⟩ := y
        obtain ⟨s1, e, e1, e2, e3⟩ := h
        exact next e1 e2 e3 (fun hm => .step hs hm)
    · refine next h3 h4 h5 ?_
      intro xs m2 as hm
      rw [flagged_troubled h1]
      exact .lapse h2 hm

theorem acts_frameRun {L : Lib} {A : Allocator} (hA : AllocOk A) {ops : List Op} :
    ∀ {s : State} {m : Machine}, Acts L s.conn m → (∀ op ∈ ops, op.Fine) →
    match m.frameRun L (ops.map Op.plain) with
    | none => run L A s ops = .error .negativeShift
    | some (m', as) => ∃ s' es, run L A s ops = .ok (s', es) ∧ SeesAll ops es as ∧
        Acts L s'.conn m' := by
  induction ops with
  | nil => intro s m a _; exact ⟨_, _, rfl, trivial, a⟩
  | cons op ops ih =>
    intro s m a hf
    have h1 := acts_frameStep (op := op) hA a (hf op (by simp))
    simp only [List.map_cons, Machine.frameRun, run]
    generalize m.frameStep L op.plain = o at h1
    cases o with
    | none =>
      have h1 : step L A s op = .error .negativeShift := h1
      rw [h1]; rfl
    | some y =>
      obtain ⟨m1, ans⟩ := y
      obtain ⟨c1, e, e1, e2, e3⟩ := h1
      have h2 := ih e3 (fun op h => hf op (by simp [h]))
      rw [e1]
      simp only [exec_bind_ok]
      generalize m1.frameRun L (ops.map Op.plain) = o at h2
      cases o with
      | none =>
        simp only at h2 ⊢
        rw [h2]; rfl
      | some y =>
        obtain ⟨m2, as⟩ := y
        obtain ⟨c2, es, g1, g2, g3⟩ := h2
        rw [g1]
        exact ⟨_, _, rfl, ⟨e2, g2⟩, g3⟩

end S2A.Frame
