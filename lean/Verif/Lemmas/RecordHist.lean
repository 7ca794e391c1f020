import Verif.Lemmas.Unprotect
import Verif.Model.RecordHist
namespace S2A.Record
open HalfConn (exec_bind_eq_ok AeadCall)

/-! ### What a call touches -/

theorem retrieveAndSend_frame {c c' : Conn} (h : retrieveAndSend c = .ok c') :
    c'.inC = c.inC ∧ c'.outC = c.outC ∧ c'.closeNotify = c.closeNotify ∧ c'.phase = c.phase ∧
      c'.expecting = c.expecting ∧ c'.url = c.url ∧ c'.connectionId = c.connectionId ∧
      c'.localIdentity = c.localIdentity := by
  unfold retrieveAndSend at h
  simp only [exec_bind_eq_ok] at h
  obtain ⟨⟨h1, r⟩, h2, h3⟩ := h
  cases r with
  | error e => cases h3; simp
  | ok ts => cases h3; simp

theorem handleTickets_frame {c c' : Conn} {r} (h : handleTickets c r = .ok c') :
    c'.inC = c.inC ∧ c'.outC = c.outC ∧ c'.closeNotify = c.closeNotify ∧ c'.url = c.url ∧
      c'.connectionId = c.connectionId ∧ c'.localIdentity = c.localIdentity := by
  have key : ∀ c1 : Conn, (retrieveAndSend c1 >>= fun c =>
      (pure { c with expecting := false, phase := Phase.done } : Exec Conn)) = .ok c' →
      c'.inC = c1.inC ∧ c'.outC = c1.outC ∧ c'.closeNotify = c1.closeNotify ∧ c'.url = c1.url ∧
      c'.connectionId = c1.connectionId ∧ c'.localIdentity = c1.localIdentity := by
    intro c1 h
    simp only [exec_bind_eq_ok] at h
    obtain ⟨c2, h2, h3⟩ := h
    obtain ⟨a, b, c, d, e, f, g, i⟩ := retrieveAndSend_frame h2
    cases h3
    exact ⟨a, b, c, f, g, i⟩
  unfold handleTickets at h
  split at h
  · cases h; simp
  · cases hk : r.containsTicket
    · simp only [hk, Bool.false_and] at h
      cases h; simp
    · simp only [hk, if_true, Bool.true_and] at h
      split at h
      · have := key _ h
        exact this
      · cases h; simp

/-- `HandleProcessHandshakeMessageResult` changes keys only by the update it reports. -/
theorem handleResult_frame {L : Lib} {f : KeyFault} {c c' : Conn} {r st rk}
    (h : handleResult L f c r = .ok (c', st, rk)) :
    c'.outC = c.outC ∧ c'.closeNotify = c.closeNotify ∧ c'.url = c.url ∧
      c'.connectionId = c.connectionId ∧ c'.localIdentity = c.localIdentity ∧
      ((rk = none ∧ c'.inC = c.inC) ∨
       ∃ st', rk = some st' ∧ c.inC.updateKey L f = .ok (c'.inC, st')) := by
  unfold handleResult at h
  cases r with
  | error e => cases h; simp
  | ok r =>
    simp only at h
    split at h
    · simp only [exec_bind_eq_ok] at h
      obtain ⟨⟨i, st1⟩, h1, h2⟩ := h
      simp only at h2
      split at h2
      · cases h2
        exact ⟨rfl, rfl, rfl, rfl, rfl, Or.inr ⟨_, rfl, h1⟩⟩
      · simp only [exec_bind_eq_ok] at h2
        obtain ⟨c2, h3, h4⟩ := h2
        obtain ⟨a, b, d, e, g, k⟩ := handleTickets_frame h3
        cases h4
        exact ⟨b, d, e, g, k, Or.inr ⟨_, rfl, by rw [a]; exact h1⟩⟩
    · simp only [exec_bind_eq_ok] at h
      obtain ⟨c2, h3, h4⟩ := h
      obtain ⟨a, b, d, e, g, k⟩ := handleTickets_frame h3
      cases h4
      exact ⟨b, d, e, g, k, Or.inl ⟨rfl, a⟩⟩

theorem dispatch_frame {L : Lib} {f : KeyFault} {c c' : Conn} {call pt w r}
    (h : dispatch L f c call pt w = .ok (c', r)) :
    c'.outC = c.outC ∧ r.call = call ∧
      ((r.rekey = none ∧ c'.inC = c.inC) ∨
       ∃ st', r.rekey = some st' ∧ c.inC.updateKey L f = .ok (c'.inC, st')) := by
  unfold dispatch at h
  simp only [exec_bind_eq_ok] at h
  obtain ⟨o, _, h⟩ := h
  cases o with
  | none => cases h; simp
  | some x =>
    obtain ⟨n, t⟩ := x
    simp only at h
    split at h
    · split at h
      · cases h; simp
      · split at h
        · cases h
        · split at h
          · cases h; simp
          · cases h; simp
    · split at h
      · simp only [exec_bind_eq_ok] at h
        obtain ⟨⟨h1, r1⟩, _, ⟨c2, st, rk⟩, h3, h4⟩ := h
        obtain ⟨a, _, _, _, _, b⟩ := handleResult_frame h3
        simp only at h4
        split at h4
        · cases h4; exact ⟨a, rfl, b⟩
        · cases h4; exact ⟨a, rfl, b⟩
      · split at h
        · split at h
          · cases h; simp
          · split at h
            · simp only [exec_bind_eq_ok] at h
              obtain ⟨c2, h3, h4⟩ := h
              obtain ⟨a, b, _⟩ := retrieveAndSend_frame h3
              cases h4
              exact ⟨b, rfl, Or.inl ⟨rfl, a⟩⟩
            · cases h; simp
        · cases h; simp

theorem protect_frame {L : Lib} {f : EvpFault} {c c' : Conn} {rt pt rec r}
    (h : protect L f c rt pt rec = .ok (c', r)) :
    c' = { c with outC := c'.outC } ∧ r.rekey = none ∧
      ((c'.outC = c.outC ∧ r.call = none) ∨
       ∃ aad pl rest r', c.outC.encrypt L f aad pl (.buf rest) = .ok (c'.outC, r.call, r')) := by
  unfold protect at h
  simp only at h
  split at h
  · cases h; simp
  split at h
  · cases h; simp
  split at h
  · cases h
  · simp only [exec_bind_eq_ok] at h
    obtain ⟨rb', _, h⟩ := h
    split at h
    · cases h; simp
    · simp only [exec_bind_eq_ok] at h
      obtain ⟨rest, hr, ⟨o, call, r'⟩, h1, h2⟩ := h
      have hrest : ∃ d, rest = .buf d := by
        simp only [Iovec.slice] at hr
        split at hr
        · cases hr; exact ⟨_, rfl⟩
        · cases hr
      obtain ⟨d, rfl⟩ := hrest
      simp only at h2
      split at h2
      · cases h2
        exact ⟨rfl, rfl, Or.inr ⟨_, _, _, _, h1⟩⟩
      · cases h2
        exact ⟨rfl, rfl, Or.inr ⟨_, _, _, _, h1⟩⟩

theorem unprotect_frame {L : Lib} {f : Fault} {c c' : Conn} {hdr pl out r}
    (h : unprotect L f c hdr pl out = .ok (c', r)) :
    c'.outC = c.outC ∧
      ((c'.inC = c.inC ∧ r.call = none ∧ r.rekey = none) ∨
       ∃ i r', c.inC.decrypt L f.evp [hdr] pl out = .ok (i, r.call, r') ∧
        ((r.rekey = none ∧ c'.inC = i) ∨
         ∃ st', r.rekey = some st' ∧ i.updateKey L f.key = .ok (c'.inC, st'))) := by
  unfold unprotect at h
  split at h
  · cases h; simp
  simp only at h
  split at h
  · cases h; simp
  split at h
  · cases h; simp
  split at h
  · cases h; simp
  simp only [exec_bind_eq_ok] at h
  obtain ⟨⟨i, call, r'⟩, h1, h2⟩ := h
  simp only at h2
  split at h2
  · simp only [exec_bind_eq_ok] at h2
    obtain ⟨z, _, h3⟩ := h2
    cases h3
    exact ⟨rfl, Or.inr ⟨i, r', h1, Or.inl ⟨rfl, rfl⟩⟩⟩
  · split at h2
    · cases h2
    · obtain ⟨a, b, d⟩ := dispatch_frame h2
      exact ⟨a, Or.inr ⟨i, r', by rw [b]; exact h1, d⟩⟩

/-! ### A connection history seen from one direction -/

theorem run_cons {L : Lib} {c op ops c' evs} (h : run L c (op :: ops) = .ok (c', evs)) :
    ∃ c1 ev es, step L c op = .ok (c1, ev) ∧ run L c1 ops = .ok (c', es) ∧ evs = ev :: es := by
  simp only [run, exec_bind_eq_ok] at h
  obtain ⟨⟨c1, ev⟩, h1, ⟨c2, es⟩, h2, h3⟩ := h
  cases h3
  exact ⟨c1, ev, es, h1, h2, rfl⟩

theorem trace_append (a b : List HalfConn.Event) :
    HalfConn.trace (a ++ b) = HalfConn.trace a ++ HalfConn.trace b := by
  induction a with
  | nil => rfl
  | cons e es ih =>
    cases e with
    | aead c s => cases c <;> simp [HalfConn.trace, ih]
    | updated s => cases s <;> simp [HalfConn.trace, ih]

theorem hrun_append {L : Lib} {a b : List HalfConn.Op} {h1 h2 h3 e1 e2}
    (ha : HalfConn.run L h1 a = .ok (h2, e1)) (hb : HalfConn.run L h2 b = .ok (h3, e2)) :
    HalfConn.run L h1 (a ++ b) = .ok (h3, e1 ++ e2) := by
  induction a generalizing h1 e1 with
  | nil => cases ha; simpa using hb
  | cons op ops ih =>
    obtain ⟨hc, ev, es, g1, g2, g3⟩ := HalfConn.run_cons ha
    subst g3
    simp [HalfConn.run, g1, ih g2]

/-- One connection call is a history of half-connection calls in each direction. -/
theorem step_project {L : Lib} {c op c' ev} (h : step L c op = .ok (c', ev)) :
    (∃ ops hevs, HalfConn.run L c.outC ops = .ok (c'.outC, hevs) ∧
      HalfConn.trace hevs = outTrace [ev]) ∧
    (∃ ops hevs, HalfConn.run L c.inC ops = .ok (c'.inC, hevs) ∧
      HalfConn.trace hevs = inTrace [ev]) := by
  cases op with
  | protect f rt pt rec =>
    simp only [step, exec_bind_eq_ok] at h
    obtain ⟨⟨c1, r⟩, h1, h2⟩ := h
    cases h2
    obtain ⟨a, b, d⟩ := protect_frame h1
    refine ⟨?_, ⟨[], [], by rw [a]; rfl, rfl⟩⟩
    rcases d with ⟨d1, d2⟩ | ⟨aad, pl, rest, r', d1⟩
    · exact ⟨[], [], by rw [d1]; rfl, by simp [outTrace, Result.uses, b, d2, HalfConn.trace]⟩
    · refine ⟨[.encrypt f aad pl rest], [.aead r.call r'.status], ?_, ?_⟩
      · simp [HalfConn.run, HalfConn.step, d1]
      · cases hc : r.call <;> simp [outTrace, Result.uses, b, HalfConn.trace, hc]
  | unprotect f hdr pl out =>
    simp only [step, exec_bind_eq_ok] at h
    obtain ⟨⟨c1, r⟩, h1, h2⟩ := h
    cases h2
    obtain ⟨a, d⟩ := unprotect_frame h1
    refine ⟨⟨[], [], by rw [a]; rfl, rfl⟩, ?_⟩
    rcases d with ⟨d1, d2, d3⟩ | ⟨i, r', d1, ⟨d2, d3⟩ | ⟨st, d2, d3⟩⟩
    · exact ⟨[], [], by rw [d1]; rfl, by simp [inTrace, Result.uses, d2, d3, HalfConn.trace]⟩
    · refine ⟨[.decrypt f.evp [hdr] pl out], [.aead r.call r'.status], ?_, ?_⟩
      · simp [HalfConn.run, HalfConn.step, d1, d3]
      · cases hc : r.call <;> simp [inTrace, Result.uses, d2, HalfConn.trace, hc]
    · refine ⟨[.decrypt f.evp [hdr] pl out, .updateKey f.key],
        [.aead r.call r'.status, .updated st], ?_, ?_⟩
      · simp [HalfConn.run, HalfConn.step, d1, d3]
      · cases hc : r.call <;> cases st <;>
          simp [inTrace, Result.uses, d2, HalfConn.trace, hc]
  | updateOutboundKey f =>
    simp only [step, updateOutboundKey, exec_bind_eq_ok] at h
    obtain ⟨⟨c1, st⟩, ⟨⟨o, st'⟩, h1, h2⟩, h3⟩ := h
    cases h2
    cases h3
    refine ⟨⟨[.updateKey f], [.updated st'], ?_, ?_⟩, ⟨[], [], rfl, rfl⟩⟩
    · simp [HalfConn.run, HalfConn.step, h1]
    · cases st' <;> simp [outTrace, HalfConn.trace]

theorem outTrace_cons (ev : Event) (evs : List Event) :
    outTrace (ev :: evs) = outTrace [ev] ++ outTrace evs := by
  cases ev with
  | sealed r => simp [outTrace]
  | opened r => simp [outTrace]
  | outboundUpdated s => cases s <;> simp [outTrace]

theorem inTrace_cons (ev : Event) (evs : List Event) :
    inTrace (ev :: evs) = inTrace [ev] ++ inTrace evs := by
  cases ev <;> simp [inTrace]

theorem run_project {L : Lib} {ops c c' evs} (h : run L c ops = .ok (c', evs)) :
    (∃ hops hevs, HalfConn.run L c.outC hops = .ok (c'.outC, hevs) ∧
      HalfConn.trace hevs = outTrace evs) ∧
    (∃ hops hevs, HalfConn.run L c.inC hops = .ok (c'.inC, hevs) ∧
      HalfConn.trace hevs = inTrace evs) := by
  induction ops generalizing c evs with
  | nil => cases h; exact ⟨⟨[], [], rfl, rfl⟩, ⟨[], [], rfl, rfl⟩⟩
  | cons op ops ih =>
    obtain ⟨c1, ev, es, h1, h2, h3⟩ := run_cons h
    subst h3
    obtain ⟨⟨o1, e1, a1, a2⟩, ⟨o2, e2, b1, b2⟩⟩ := step_project h1
    obtain ⟨⟨o3, e3, a3, a4⟩, ⟨o4, e4, b3, b4⟩⟩ := ih h2
    refine ⟨⟨o1 ++ o3, e1 ++ e3, hrun_append a1 a3, ?_⟩, ⟨o2 ++ o4, e2 ++ e4, hrun_append b1 b3, ?_⟩⟩
    · rw [trace_append, outTrace_cons, a2, a4]
    · rw [trace_append, inTrace_cons, b2, b4]

/-! ### Creation -/

theorem create_inv {L : Lib} {fIn fOut a c} (h : create L fIn fOut a = .ok (.ok c)) :
    a.url ≠ [] ∧ a.hasLogger = true ∧ a.hasSender = true ∧ a.tlsVersion = .tls1_3 ∧
      HalfConn.create L fIn a.ciphersuite a.inSequence a.inSecret = .ok (.ok c.inC) ∧
      HalfConn.create L fOut a.ciphersuite a.outSequence a.outSecret = .ok (.ok c.outC) ∧
      c = { connectionId := a.connectionId, url := a.url, localIdentity := a.localIdentity,
            inC := c.inC, outC := c.outC, closeNotify := false, handler := .init,
            phase := .notReceived, expecting := false, hasFactory := a.hasFactory,
            sent := [] } := by
  unfold create at h
  split at h
  · cases h
  next h1 =>
  split at h
  · cases h
  next h2 =>
  split at h
  · cases h
  next h3 =>
  split at h
  · cases h
  next h4 =>
  simp only [exec_bind_eq_ok] at h
  obtain ⟨r, g1, h⟩ := h
  cases r with
  | error e => cases h
  | ok i =>
    simp only [exec_bind_eq_ok] at h
    obtain ⟨r, g2, h⟩ := h
    cases r with
    | error e => cases h
    | ok o =>
      cases h
      exact ⟨by simpa using h1, by simpa using h2, by simpa using h3, by simpa using h4, g1, g2, rfl⟩

end S2A.Record
