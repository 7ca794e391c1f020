import Verif.Lemmas.FrameReach
import Verif.Spec.Session
/-
Records of one end arriving at the other.
-/
namespace S2A.Record
open HalfConn (At bump Good)
open Handler (Safe)

/-- A connection between handshake messages, ready for data. -/
structure Ready (c : Conn) : Prop where
  notClosed : c.closeNotify = false
  idle : c.expecting = false
  safe : Safe c.handler
  frags : c.handler.fragments = []
  hdr : c.handler.hdrExp = 4
  inData : c.handler.inData = false

theorem retrieveAndSend_quiet {c : Conn} (hf : c.handler.fragments = []) (s : Safe c.handler) :
    ∃ c', retrieveAndSend c = .ok c' ∧ c'.handler.fragments = [] ∧
      c'.handler.hdrExp = c.handler.hdrExp ∧ c'.handler.inData = c.handler.inData ∧
      Safe c'.handler := by
  obtain ⟨c', e, s'⟩ := retrieveAndSend_safe s
  refine ⟨c', e, ?_⟩
  unfold retrieveAndSend Handler.getStoredTickets at e
  have hem : c.handler.expectingMore = false := by simp [Handler.expectingMore, hf]
  by_cases hr : c.handler.retrieved = true
  · rw [if_pos hr] at e
    cases e
    exact ⟨hf, rfl, rfl, s'⟩
  · rw [if_neg hr, hem] at e
    obtain ⟨ts, hts⟩ : ∃ ts, c.handler.fullTickets = some ts := by
      rcases s.tick with h1 | h1
      · exact absurd h1 hr
      · exact h1
    simp only [Bool.false_eq_true, if_false, exec_pure, exec_bind_ok, hts] at e
    cases e
    exact ⟨hf, rfl, rfl, s'⟩

/-- The parts of a sealed record. -/
theorem protect_parts (L : Lib) (d : Spec.Dir) (inner : Bytes) (h : inner.length ≤ 16385) :
    ∃ payload, d.protect L inner = Spec.recordHeader payload.length ++ payload ∧
      payload.length = inner.length + 16 ∧
      d.open L (Spec.recordHeader payload.length) payload = some inner := by
  have hl : (Spec.aeadSeal L d.suite.alg (d.key L) (d.nonce L)
      (Spec.recordHeader (inner.length + 16)) inner).length = inner.length + 16 := by
    rw [Aead.aeadSeal_length]
  refine ⟨_, ?_, hl, ?_⟩
  · simp only [Spec.Dir.protect, Spec.sealRecord, hl]
  · simp only [Spec.Dir.open, hl, Aead.aeadOpen_aeadSeal]

/-- A record with the given inner plaintext at the next position is decrypted. -/
theorem unprotect_next {L : Lib} {f : Fault} {c : Conn} {d : Spec.Dir} {inner payload : Bytes}
    {ps : List Iovec} {ob : Bytes} (hat : At L c.inC d) (hseq : d.seq < 2 ^ 64)
    (hcn : c.closeNotify = false) (hl : 1 ≤ inner.length ∧ inner.length ≤ 16385)
    (hf : f.evp = .none) (hpl : payload.length = inner.length + 16)
    (hop : d.open L (Spec.recordHeader payload.length) payload = some inner)
    (hps : flat ps = payload) (hwf : AllWF ps) (hob : inner.length ≤ ob.length) :
    ∃ call, unprotect L f c (.buf (Spec.recordHeader payload.length)) ps (.buf ob) =
      dispatch L f.key { c with inC := bump c.inC } (some call)
        (inner ++ ob.drop inner.length) inner.length := by
  have hh : (Iovec.buf (Spec.recordHeader payload.length)).len = 5 := rfl
  rw [unprotect_flat L f c _ ps (.buf ob) hat.good.nonce hwf trivial hf
    (by rw [hwf.totalLen_eq, hps]; simp only [Iovec.len]; omega), hps]
  unfold openFlat
  rw [if_neg (by simp [hcn]), if_neg (by rw [hh]; omega), if_neg (by rw [hh]; omega),
    if_neg (by simp), if_neg (by rw [hat.not_blocked hseq]; simp)]
  simp only [hat.nonce hseq, hat.key, hat.good.alg]
  unfold Spec.Dir.open at hop
  rw [hop]
  exact ⟨_, rfl⟩

theorem unprotect_data {L : Lib} {f : Fault} {c : Conn} {d : Spec.Dir} {x payload : Bytes}
    {ps : List Iovec} {ob : Bytes} (hat : At L c.inC d) (hseq : d.seq < 2 ^ 64)
    (hc : Ready c) (hx : x.length ≤ 16384) (hf : f.evp = .none)
    (hpl : payload.length = x.length + 17)
    (hop : d.open L (Spec.recordHeader payload.length) payload =
      some (Spec.innerPlaintext x Spec.appDataType 0))
    (hps : flat ps = payload) (hwf : AllWF ps) (hob : x.length + 1 ≤ ob.length) :
    ∃ c' r, unprotect L f c (.buf (Spec.recordHeader payload.length)) ps (.buf ob) = .ok (c', r) ∧
      r.code = .ok ∧ r.written = x.length ∧ r.out.bytes.take r.written = x ∧
      At L c'.inC d.next ∧ Ready c' := by
  have hil : (Spec.innerPlaintext x Spec.appDataType 0).length = x.length + 1 := by
    simp [Spec.innerPlaintext]
  obtain ⟨call, e⟩ := unprotect_next (ob := ob) hat hseq hc.notClosed (by rw [hil]; omega) hf
    (by rw [hil]; omega) hop hps hwf (by rw [hil]; exact hob)
  have hu := unpad_inner x Spec.appDataType 0 (by decide)
  rw [e, dispatch_appData _ _ _ _ _ _ hu]
  have htk : ∀ t : Bytes, List.take x.length (Spec.innerPlaintext x Spec.appDataType 0 ++ t) = x := by
    intro t; simp [Spec.innerPlaintext]
  rw [if_neg (by simp [hc.idle])]
  by_cases hph : c.phase = .receiving
  · rw [if_pos hph]
    obtain ⟨c', g1, g2, g3, g4, g5⟩ := retrieveAndSend_quiet (c := { c with inC := bump c.inC })
      hc.frags hc.safe
    obtain ⟨f1, f2, f3, f4, f5, _⟩ := retrieveAndSend_frame g1
    rw [g1]
    refine ⟨_, _, rfl, rfl, rfl, htk _, ?_, ⟨f3.trans hc.notClosed, f5.trans hc.idle, g5, g2,
      g3.trans hc.hdr, g4.trans hc.inData⟩⟩
    show At L c'.inC d.next
    rw [f1]
    exact hat.bump hseq
  · rw [if_neg hph]
    exact ⟨_, _, rfl, rfl, rfl, htk _, hat.bump hseq,
      ⟨hc.notClosed, hc.idle, hc.safe, hc.frags, hc.hdr, hc.inData⟩⟩

open Spec (keyUpdateMessage)


theorem process_keyUpdate {h : Handler} (s : Safe h) (hf : h.fragments = []) (hh : h.hdrExp = 4)
    (hi : h.inData = false) (k : UInt8) :
    ∃ h' res, h.process (keyUpdateMessage k) = .ok (h', .ok res) ∧ res.expecting = false ∧
      res.containsKeyUpdate = true ∧ res.containsTicket = false ∧ Safe h' ∧ h'.fragments = [] ∧
      h'.hdrExp = 4 ∧ h'.inData = false := by
  obtain ⟨frags, ft, nf, ret, de, he, ind⟩ := h
  simp only at hf hh hi
  subst hf hh hi
  have hs1 : (Nat.toDigits 10 1).length = 1 := rfl
  have key : Handler.process ⟨[], ft, nf, ret, de, 4, false⟩ (keyUpdateMessage k) =
      .ok (⟨[], ft, nf, ret, 0, 4, false⟩, .ok ⟨false, true, k, false, nf⟩) := by
    cases hb : (ret || decide (nf ≥ Handler.kMaxTickets)) <;>
      simp [Handler.process, keyUpdateMessage, Handler.loop, Handler.readFragment, Handler.store,
        Handler.ignoreFuture, hb, Handler.dataSizeFromHeader, Handler.sizeOuter,
        Handler.sizeInner, Handler.messageType, Handler.keyUpdateType, Handler.expectingMore,
        Handler.kHeaderLen, Handler.kKeyUpdateType, Handler.kTicketType]
  refine ⟨_, _, key, rfl, rfl, rfl, ⟨Or.inl rfl, s.tick, Nat.zero_lt_succ _, ?_⟩, rfl, rfl, rfl⟩
  intro h; cases h

theorem unprotect_keyUpdate {L : Lib} {f : Fault} {c : Conn} {d : Spec.Dir} {payload : Bytes}
    {k : UInt8} {ps : List Iovec} {ob : Bytes} (hat : At L c.inC d) (hseq : d.seq < 2 ^ 64)
    (hc : Ready c) (hf : f.evp = .none) (hk : f.key = .none) (hpl : payload.length = 22)
    (hop : d.open L (Spec.recordHeader payload.length) payload =
      some (Spec.innerPlaintext (keyUpdateMessage k) Spec.handshakeType 0))
    (hps : flat ps = payload) (hwf : AllWF ps) (hob : 6 ≤ ob.length) :
    ∃ c' r, unprotect L f c (.buf (Spec.recordHeader payload.length)) ps (.buf ob) = .ok (c', r) ∧
      r.code = .ok ∧ r.written = 0 ∧ At L c'.inC (d.next.update L) ∧ Ready c' := by
  have hil : (Spec.innerPlaintext (keyUpdateMessage k) Spec.handshakeType 0).length = 6 := rfl
  obtain ⟨call, e⟩ := unprotect_next (ob := ob) hat hseq hc.notClosed (by rw [hil]; omega) hf
    (by rw [hpl]; rfl) hop hps hwf hob
  have hu := unpad_inner (keyUpdateMessage k) Spec.handshakeType 0 (by decide)
  rw [e, dispatch_handshake _ _ _ _ _ _ hu]
  obtain ⟨h', res, g1, g2, g3, g4, g5, g6, g7, g8⟩ :=
    process_keyUpdate hc.safe hc.frags hc.hdr hc.inData k
  simp only [g1, exec_bind_ok]
  have hat1 := hat.bump hseq
  obtain ⟨hc', st, u1, _, u2, _, u3⟩ := HalfConn.updateKey_spec L f.key d.next.suite (bump c.inC) hat1.good
  have hst := u3 hk
  have hnt : ∀ c1 : Conn, handleTickets c1 res = .ok c1 := by
    intro c1
    unfold handleTickets
    simp only [g4, Bool.false_and, Bool.false_eq_true, if_false]
    split <;> rfl
  unfold handleResult
  simp only [g3, if_true, u1, exec_bind_ok, hst, ne_eq, not_true_eq_false, if_false, hnt,
    exec_pure]
  refine ⟨_, _, rfl, rfl, rfl, ?_, ⟨hc.notClosed, g2, g5, g6, g7, g8⟩⟩
  show At L hc' _
  rw [u2 hst]
  exact hat1.updated

end S2A.Record

namespace S2A.Frame
open HalfConn (At)
open Record (Ready)
open Spec (AllocOk dataRecords fragments messageRecords)

theorem unprotectLoop_data {L : Lib} {A : Allocator} (hA : AllocOk A) {f : Nat → Record.Fault}
    (hf : ∀ i, (f i).evp = .none) (xs : List Bytes) (fuel i : Nat) (s : State) (vs : List Iovec)
    (on rem : Nat) (done : List (BufId × Bytes)) (d : Spec.Dir) (hc : Cursor vs on)
    (hah : ahead vs on = (dataRecords L d xs).flatten) (hrem : rem = (ahead vs on).length)
    (hfuel : rem < fuel) (hxs : ∀ x ∈ xs, x.length ≤ 16384) (hat : At L s.conn.inC d)
    (hseq : d.seq + xs.length ≤ 2 ^ 64) (hr : Ready s.conn) :
    ∃ s' bufs, unprotectLoop L A f fuel i s vs on rem done = .ok (s', ⟨.ok, done ++ bufs⟩) ∧
      bufs.map (·.2) = xs ∧ At L s'.conn.inC (d.skip xs.length) ∧ Ready s'.conn := by
  induction xs generalizing fuel i s vs on rem done d with
  | nil =>
    cases fuel with
    | zero => omega
    | succ fuel =>
      unfold unprotectLoop
      have h0 : rem = 0 := by rw [hrem, hah]; rfl
      have h22 : s.conn.recordOverhead = 22 := Record.recordOverhead_eq _
      rw [if_neg (by rw [h22, h0]; omega)]
      exact ⟨s, [], by simp, rfl, by simpa [Spec.Dir.skip] using hat, hr⟩
  | cons x xs ih =>
    cases fuel with
    | zero => omega
    | succ fuel =>
      unfold unprotectLoop
      have hx := hxs x (by simp)
      have hil : (Spec.innerPlaintext x Spec.appDataType 0).length = x.length + 1 := by
        simp [Spec.innerPlaintext]
      obtain ⟨payload, p1, p2, p3⟩ := Record.protect_parts L d
        (Spec.innerPlaintext x Spec.appDataType 0) (by omega)
      have hw : Spec.Whole (Spec.recordHeader payload.length) payload := ⟨by omega, rfl⟩
      have hsplit : ahead vs on = Spec.recordHeader payload.length ++ payload ++
          (dataRecords L d.next xs).flatten := by
        rw [hah, ← p1]; rfl
      have hfr := firstRecord_whole hw (dataRecords L d.next xs).flatten
      rw [← hsplit] at hfr
      have hlen : rem = 5 + payload.length + (dataRecords L d.next xs).flatten.length := by
        rw [hrem, hsplit]; simp [Spec.recordHeader]; omega
      have h22 : s.conn.recordOverhead = 22 := Record.recordOverhead_eq _
      rw [if_pos (by rw [h22]; omega)]
      rcases walk_spec vs on hc with ⟨hno, _⟩ |
        ⟨hd, payload', rest, vs1, on1, ps, vs', on2, hfr', k1, k2, k3, k4, k5, k6, k7⟩
      · rw [hno] at hfr; cases hfr
      rw [hfr] at hfr'
      cases hfr'
      obtain ⟨ob, hd1, hd2⟩ := hA s.next payload.length
      rw [k3] at k2
      simp only [List.length_cons] at hseq
      obtain ⟨c', r, e1, e2, e3, e4, e5, e6⟩ := Record.unprotect_data (f := f i) (ps := ps) (ob := ob) hat
        (by omega) hr hx (hf i) (by omega) p3 k4 k5 (by omega)
      simp only [k1, exec_bind_ok, k3, k2, State.alloc, hd1, State.crypterUnprotect, e1, exec_pure]
      rw [if_neg (not_not_intro e2)]
      simp only [subSize_ok (show kHeaderLength + payload.length ≤ rem by simp [kHeaderLength]; omega),
        exec_bind_ok]
      obtain ⟨s', bufs, q1, q2, q3, q4⟩ := ih fuel (i + 1) { s with conn := c', next := s.next + 1, mem := s.mem ++ [.alloc (.heap s.next) payload.length], evs := s.evs ++ [.opened r] } vs' on2
        (rem - (kHeaderLength + payload.length)) (done ++ [(.heap s.next, r.out.bytes.take r.written)])
        d.next k6 k7 (by rw [k7, hlen]; simp [kHeaderLength]) (by simp only [kHeaderLength]; omega)
        (fun y hy => hxs y (by simp [hy])) e5
        (by show d.seq + 1 + xs.length ≤ _; omega) e6
      rw [q1]
      refine ⟨s', (.heap s.next, r.out.bytes.take r.written) :: bufs, by simp, by simp [q2, e4], ?_, q4⟩
      have : d.skip (xs.length + 1) = d.next.skip xs.length := by
        simp [Spec.Dir.skip, Spec.Dir.next]; omega
      rw [List.length_cons, this]
      exact q3

theorem fragments_flatten (b : Bytes) : (fragments b).flatten = b := by
  have : ∀ k b, b.length ≤ k → (fragments b).flatten = b := by
    intro k
    induction k with
    | zero => intro b hb; rw [fragments_short (by omega)]; simp
    | succ k ih =>
      intro b hb
      by_cases h : b.length ≤ 16384
      · rw [fragments_short h]; simp
      · rw [fragments_long (by omega), List.flatten_cons, ih _ (by simp; omega),
          List.take_append_drop]
  exact this b.length b (Nat.le_refl _)

theorem fragments_le (b : Bytes) : ∀ x ∈ fragments b, x.length ≤ 16384 := by
  intro x hx
  unfold fragments at hx
  obtain ⟨i, _, rfl⟩ := List.mem_map.1 hx
  simp; omega

theorem fragments_length (b : Bytes) : (fragments b).length = Spec.recordCount b.length := by
  simp [fragments]

/-- The allocating `Unprotect` on the records of a message. -/
theorem unprotect_message {L : Lib} {A : Allocator} (hA : AllocOk A) {f : Nat → Record.Fault}
    (hf : ∀ i, (f i).evp = .none) {s : State} {vs : List Iovec} {d : Spec.Dir} {b : Bytes}
    (hv : Spec.NonEmptyBufs vs) (hb : flat vs = (messageRecords L d b).flatten)
    (hat : At L s.conn.inC d) (hseq : d.seq + Spec.recordCount b.length ≤ 2 ^ 64)
    (hr : Ready s.conn) :
    ∃ s' bufs, unprotect L A f s vs = .ok (s', ⟨.ok, bufs⟩) ∧ bufs.map (·.2) = fragments b ∧
      At L s'.conn.inC (d.skip (Spec.recordCount b.length)) ∧ Ready s'.conn := by
  unfold unprotect
  simp only
  have hfl := hv.wf.totalLen_eq
  have h22 : s.conn.recordOverhead = 22 := Record.recordOverhead_eq _
  have hlen := messageRecords_length L d b
  have hpos := recordCount_pos b.length
  rw [← hb] at hlen
  rw [if_neg (by rw [h22]; omega)]
  have := unprotectLoop_data hA hf (fragments b) (totalLen vs + 1) 0 s vs 0 (totalLen vs) [] d
    (cursor_start hv) (by simp only [ahead, List.drop_zero]; exact hb) (by simp [ahead, hfl]) (by omega) (fragments_le b) hat
    (by rw [fragments_length]; exact hseq) hr
  rw [fragments_length] at this
  exact this

/-- The allocating `Unprotect` on a key update record. -/
theorem unprotect_update {L : Lib} {A : Allocator} (hA : AllocOk A) {f : Nat → Record.Fault}
    (hf : ∀ i, (f i).evp = .none ∧ (f i).key = .none) {s : State} {vs : List Iovec} {d : Spec.Dir}
    {k : UInt8} (hv : Spec.NonEmptyBufs vs)
    (hb : flat vs = d.protect L (Spec.innerPlaintext (Spec.keyUpdateMessage k) Spec.handshakeType 0))
    (hat : At L s.conn.inC d) (hseq : d.seq < 2 ^ 64) (hr : Ready s.conn) :
    ∃ s' bufs, unprotect L A f s vs = .ok (s', ⟨.ok, bufs⟩) ∧ bufs.map (·.2) = [[]] ∧
      At L s'.conn.inC (d.next.update L) ∧ Ready s'.conn := by
  unfold unprotect
  simp only
  have hfl := hv.wf.totalLen_eq
  have h22 : s.conn.recordOverhead = 22 := Record.recordOverhead_eq _
  obtain ⟨payload, p1, p2, p3⟩ := Record.protect_parts L d
    (Spec.innerPlaintext (Spec.keyUpdateMessage k) Spec.handshakeType 0)
    (show 6 ≤ 16385 by omega)
  have hp22 : payload.length = 22 := p2
  have hw : Spec.Whole (Spec.recordHeader payload.length) payload := ⟨by omega, rfl⟩
  have hlen : totalLen vs = 27 := by
    rw [hfl, hb, p1]; simp [Spec.recordHeader, hp22]
  rw [if_neg (by rw [h22]; omega)]
  have hfr := firstRecord_whole hw []
  rw [List.append_nil, ← p1, ← hb] at hfr
  unfold unprotectLoop
  rw [if_pos (by rw [h22]; omega)]
  rcases walk_spec vs 0 (cursor_start hv) with ⟨hno, _⟩ |
    ⟨hd, payload', rest, vs1, on1, ps, vs', on2, hfr', k1, k2, k3, k4, k5, k6, k7⟩
  · simp only [ahead, List.drop_zero] at hno; rw [hno] at hfr; cases hfr
  simp only [ahead, List.drop_zero] at hfr'
  rw [hfr] at hfr'
  cases hfr'
  obtain ⟨ob, hd1, hd2⟩ := hA s.next payload.length
  rw [k3] at k2
  obtain ⟨c', r, e1, e2, e3, e4, e5⟩ := Record.unprotect_keyUpdate (f := f 0) (ps := ps) (ob := ob) hat
    hseq hr (hf 0).1 (hf 0).2 hp22 p3 k4 k5 (by omega)
  simp only [k1, exec_bind_ok, k3, k2, State.alloc, hd1, State.crypterUnprotect, e1, exec_pure]
  rw [if_neg (not_not_intro e2)]
  simp only [subSize_ok (show kHeaderLength + payload.length ≤ totalLen vs by simp [kHeaderLength]; omega),
    exec_bind_ok]
  rw [hlen]
  unfold unprotectLoop
  have h22' : c'.recordOverhead = 22 := Record.recordOverhead_eq _
  rw [if_neg (by simp only [h22', kHeaderLength]; omega)]
  exact ⟨_, _, rfl, by simp [e3], e4, e5⟩

end S2A.Frame

namespace S2A.Record

/-- What follows the plaintext in the buffer has no influence. -/
theorem dispatch_tail (L : Lib) (f : KeyFault) (c : Conn) (call) (p t t' : Bytes) :
    (∃ e, dispatch L f c call (p ++ t) p.length = .error e ∧
      dispatch L f c call (p ++ t') p.length = .error e) ∨
    ∃ c' r r', dispatch L f c call (p ++ t) p.length = .ok (c', r) ∧
      dispatch L f c call (p ++ t') p.length = .ok (c', r') ∧ r.code = r'.code ∧
      r.written = r'.written ∧ r.out.bytes.take r.written = r'.out.bytes.take r.written ∧
      r.written ≤ p.length := by
  rcases unpad_cases p with ⟨hu, _⟩ | ⟨content, ty, k, ht, hpe, hu⟩
  · rw [dispatch_none _ _ _ _ _ _ hu, dispatch_none _ _ _ _ _ _ hu]
    exact Or.inr ⟨_, _, _, rfl, rfl, rfl, rfl, rfl, Nat.zero_le _⟩
  by_cases t1 : ty = Spec.alertType
  · rw [t1] at hu
    rw [dispatch_alert _ _ _ _ _ _ hu, dispatch_alert _ _ _ _ _ _ hu]
    right
    split
    · exact ⟨_, _, _, rfl, rfl, rfl, rfl, rfl, Nat.zero_le _⟩
    · split <;> exact ⟨_, _, _, rfl, rfl, rfl, rfl, rfl, Nat.zero_le _⟩
  by_cases t2 : ty = Spec.handshakeType
  · rw [t2] at hu
    rw [dispatch_handshake _ _ _ _ _ _ hu, dispatch_handshake _ _ _ _ _ _ hu]
    cases c.handler.process content with
    | error e => exact Or.inl ⟨e, rfl, rfl⟩
    | ok x =>
      obtain ⟨h', res⟩ := x
      simp only [exec_bind_ok]
      cases handleResult L f { c with handler := h' } res with
      | error e => exact Or.inl ⟨e, rfl, rfl⟩
      | ok y =>
        obtain ⟨c', st, rk⟩ := y
        simp only [exec_bind_ok]
        right
        split <;> exact ⟨_, _, _, rfl, rfl, rfl, rfl, rfl, Nat.zero_le _⟩
  by_cases t3 : ty = Spec.appDataType
  · rw [t3] at hu
    rw [dispatch_appData _ _ _ _ _ _ hu, dispatch_appData _ _ _ _ _ _ hu]
    have hcl : content.length ≤ p.length := by rw [hpe]; simp [Spec.innerPlaintext]
    have htk : ∀ t : Bytes, List.take content.length (p ++ t) = List.take content.length p := by
      intro t; rw [List.take_append_of_le_length hcl]
    split
    · exact Or.inr ⟨_, _, _, rfl, rfl, rfl, rfl, rfl, Nat.zero_le _⟩
    split
    · cases retrieveAndSend c with
      | error e => exact Or.inl ⟨e, rfl, rfl⟩
      | ok c' => exact Or.inr ⟨_, _, _, rfl, rfl, rfl, rfl, by simp only [Iovec.bytes, htk], hcl⟩
    · exact Or.inr ⟨_, _, _, rfl, rfl, rfl, rfl, by simp only [Iovec.bytes, htk], hcl⟩
  · rw [dispatch_other _ _ _ _ _ _ hu t1 t2 t3, dispatch_other _ _ _ _ _ _ hu t1 t2 t3]
    exact Or.inr ⟨_, _, _, rfl, rfl, rfl, rfl, rfl, Nat.zero_le _⟩

end S2A.Record

namespace S2A.Frame
open Spec (AllocOk dataRecords)

theorem dataRecords_parts (L : Lib) (d : Spec.Dir) (xs : List Bytes)
    (h : ∀ x ∈ xs, x.length ≤ 16384) :
    ∃ recs, dataRecords L d xs = (recs.map fun r => r.1 ++ r.2) ∧
      (∀ r ∈ recs, Spec.Whole r.1 r.2) ∧
      recs.map (·.2.length) = xs.map (·.length + 17) ∧
      Spec.Accepted L d recs xs (d.skip xs.length) := by
  induction xs generalizing d with
  | nil => exact ⟨[], rfl, by simp, rfl, .nil _⟩
  | cons x xs ih =>
    obtain ⟨recs, a1, a2, a3, a4⟩ := ih d.next (fun y hy => h y (by simp [hy]))
    have hx := h x (by simp)
    have hil : (Spec.innerPlaintext x Spec.appDataType 0).length = x.length + 1 := by
      simp [Spec.innerPlaintext]
    obtain ⟨payload, p1, p2, p3⟩ := Record.protect_parts L d
      (Spec.innerPlaintext x Spec.appDataType 0) (by omega)
    refine ⟨(Spec.recordHeader payload.length, payload) :: recs, ?_, ?_, ?_, ?_⟩
    · simp only [dataRecords, List.map_cons, a1, p1]
    · intro r hr
      rcases List.mem_cons.1 hr with rfl | hr
      · exact ⟨by simp only; omega, rfl⟩
      · exact a2 r hr
    · simp only [List.map_cons, a3]
      rw [p2, hil]
    · have : d.skip (xs.length + 1) = d.next.skip xs.length := by
        simp [Spec.Dir.skip, Spec.Dir.next]; omega
      rw [List.length_cons, this]
      exact .data p3 (Record.unpad_inner x Spec.appDataType 0 (by decide)) a4

theorem fragments_init (b : Bytes) : ∀ x ∈ (Spec.fragments b).dropLast, x.length = 16384 := by
  have : ∀ k b, b.length ≤ k → ∀ x ∈ (Spec.fragments b).dropLast, x.length = 16384 := by
    intro k
    induction k with
    | zero => intro b hb; rw [fragments_short (by omega)]; simp
    | succ k ih =>
      intro b hb
      by_cases h : b.length ≤ 16384
      · rw [fragments_short h]; simp
      · rw [fragments_long (by omega)]
        have hne : Spec.fragments (b.drop 16384) ≠ [] := by
          intro h0
          have := fragments_length (b.drop 16384)
          rw [h0] at this
          have := recordCount_pos (b.drop 16384).length
          simp at *; omega
        rw [List.dropLast_cons_of_ne_nil hne]
        intro x hx
        rcases List.mem_cons.1 hx with rfl | hx
        · simp; omega
        · exact ih _ (by simp; omega) x hx
  exact this b.length b (Nat.le_refl _)

theorem unprotectLoop_fits {L : Lib} {A : Allocator} (hA : AllocOk A) {a : Record.CreateArgs}
    {su : Spec.Suite} (hs : Spec.suite a.ciphersuite = some su) {f : Nat → Record.Fault}
    {fuel i s vs on rem done s' res}
    (hc : Cursor vs on) (hr : Record.Reach L a s.conn s.evs)
    (hd : ∀ x ∈ done, ∃ n, .alloc x.1 n ∈ s.mem ∧ x.2.length ≤ n)
    (h : unprotectLoop L A f fuel i s vs on rem done = .ok (s', res)) :
    ∀ x ∈ res.bytes, ∃ n, .alloc x.1 n ∈ s'.mem ∧ x.2.length ≤ n := by
  induction fuel generalizing i s vs on rem done with
  | zero => cases h
  | succ fuel ih =>
    unfold unprotectLoop at h
    by_cases hge : rem ≥ s.conn.recordOverhead
    case neg =>
      rw [if_neg hge] at h
      cases h; exact hd
    rw [if_pos hge] at h
    rcases walk_spec vs on hc with ⟨hno, hw⟩ |
      ⟨hd', payload, rest, vs1, on1, ps, vs', on2, hfr, k1, k2, k3, k4, k5, k6, k7⟩
    · rcases hw with hw | ⟨hd', v', o', h1, h2⟩
      · simp only [hw, exec_bind_ok, exec_pure] at h
        cases h; simp
      · simp only [h1, h2, exec_bind_ok, exec_pure] at h
        cases h; simp
    obtain ⟨ob, hd1, hd2⟩ := hA s.next payload.length
    rw [k3] at k2
    simp only [k1, exec_bind_ok, k3, k2, State.alloc, hd1, State.crypterUnprotect] at h
    rcases Record.unprotect_safe' (L := L) (f := f i) (header := .buf hd') (payload := ps)
      (out := .buf ob) (hr.good hs).1 hr.safe k5 trivial with he | ⟨c', r, he, _, hlen, _⟩
    · rw [he] at h; cases h
    simp only [he, exec_bind_ok, exec_pure] at h
    split at h
    · cases h; simp
    simp only [HalfConn.exec_bind_eq_ok] at h
    obtain ⟨rem', _, h⟩ := h
    refine ih k6 (hr.step (op := .unprotect (f i) (.buf hd') ps (.buf ob)) (ev := .opened r) (by simp [Record.step, he])) ?_ h
    intro x hx
    rcases List.mem_append.1 hx with hx | hx
    · obtain ⟨n, m1, m2⟩ := hd x hx
      exact ⟨n, by simp [m1], m2⟩
    · simp only [List.mem_singleton] at hx
      subst hx
      refine ⟨payload.length, by simp, ?_⟩
      have : r.out.bytes.length ≤ r.out.len := by cases r.out <;> simp [Iovec.bytes, Iovec.len]
      simp only [Iovec.len] at hlen this
      simp only [List.length_take]
      omega

end S2A.Frame

namespace S2A.HalfConn

theorem At.pos_unique {L : Lib} {hc : HalfConn} {d d' : Spec.Dir} (h : At L hc d) (h' : At L hc d')
    (hs : d.suite = d'.suite) : d = d' := by
  have h1 := h.secret.symm.trans h'.secret
  have h2 := h.seq.symm.trans h'.seq
  have h3 := h.over.symm.trans h'.over
  have h4 := decide_eq_decide.1 h3
  have h5 := h.le
  have h6 := h'.le
  obtain ⟨s, k, q⟩ := d
  obtain ⟨s', k', q'⟩ := d'
  simp only at *
  have : q = q' := by omega
  simp_all

theorem At.same {L : Lib} {hc hc' : HalfConn} {d : Spec.Dir} (h : At L hc d) (h' : At L hc' d) :
    hc.secret = hc'.secret ∧ hc.seq = hc'.seq ∧ hc.aead = hc'.aead ∧ hc.nonce = hc'.nonce := by
  refine ⟨h.secret.trans h'.secret.symm, UInt64.toNat_inj.1 (h.seq.trans h'.seq.symm), ?_,
    h.iv.trans h'.iv.symm⟩
  have e1 := h.key.trans h'.key.symm
  have e2 := h.good.alg.trans h'.good.alg.symm
  cases hx : hc.aead
  cases hy : hc'.aead
  simp_all

end S2A.HalfConn

namespace S2A.Frame
open HalfConn (exec_bind_eq_ok)
open Spec (AllocOk)

/-- Only a connection whose direction has not failed for good can protect. -/
theorem protectInto_alive {L : Lib} {a : Record.CreateArgs} {f : Nat → EvpFault} {s s' : State} {id vs ob st out}
    (hr : Record.Reach L a s.conn s.evs)
    (h : protectInto L f s id vs (.buf ob) = .ok (s', st, out)) (hok : st = .ok) :
    s.conn.outC.alwaysFail = false := by
  obtain ⟨su, hsu⟩ := hr.suite
  have hn := (hr.good hsu).2.nonce
  unfold protectInto at h
  simp only at h
  unfold protectLoop at h
  have hcond : (decide (totalLen vs = 0) || decide (totalLen vs > 0)) = true := by
    simp; omega
  rw [if_pos hcond] at h
  generalize (if totalLen vs < kMaxPlaintext then totalLen vs else kMaxPlaintext) = n at h
  simp only [exec_bind_eq_ok] at h
  obtain ⟨x, _, room, _, slot, hslot, ⟨s1, r⟩, h1, h2⟩ := h
  have hslot' : ∃ rb, slot = .buf rb := by
    simp only [Iovec.slice] at hslot
    split at hslot
    · cases hslot; exact ⟨_, rfl⟩
    · cases hslot
  obtain ⟨rb, rfl⟩ := hslot'
  obtain ⟨c, r', e1, e2, e3⟩ := crypterProtect_spec L (f 0) s x.1 rb hn
  rw [e1] at h1
  cases h1
  simp only at h2
  by_cases hcode : r.code ≠ .ok
  · rw [if_pos hcode] at h2
    cases h2
    exact absurd (convertCode_ok.1 hok) hcode
  · rcases e3 with ⟨_, _, rfl⟩ | ⟨_, _, ⟨_, _, rfl⟩ | ⟨t, ht, ⟨_, _, rfl⟩ | ⟨hb, _⟩⟩⟩
    · exact absurd (by simp) hcode
    · exact absurd (by simp) hcode
    · exact absurd (by simp) hcode
    · unfold HalfConn.blocked at hb
      simp only [Bool.or_eq_false_iff] at hb
      exact hb.1

theorem protect_alive {L : Lib} {A : Allocator} (hA : AllocOk A) {a : Record.CreateArgs}
    {f : Nat → EvpFault} {s s' : State} {vs res} (hr : Record.Reach L a s.conn s.evs)
    (h : protect L A f s vs = .ok (s', res)) (hok : res.status = .ok) :
    s.conn.outC.alwaysFail = false := by
  obtain ⟨ob, e, _⟩ := hA s.next (numberBytesToProtect s (totalLen vs))
  simp only [protect, State.alloc, exec_bind_eq_ok, e] at h
  obtain ⟨⟨s1, st, o⟩, h1, h2⟩ := h
  simp only at h2
  split at h2
  next hst => cases h2; exact absurd hok hst
  next hst =>
    exact protectInto_alive (s := { s with next := s.next + 1, mem := s.mem ++ [.alloc (.heap s.next) (numberBytesToProtect s (totalLen vs))] }) hr h1 (Decidable.of_not_not hst)

/-- The non-allocating `Unprotect` on byte strings. -/
def openInto (L : Lib) (f : KeyFault) (s : State) (b : Bytes) (out : Iovec) :
    Exec (State × StatusCode × Nat × Iovec) :=
  if b.length < 22 then .ok (s, .failedPrecondition, out.len, out)
  else match Spec.firstRecord b with
    | none => .ok (s, .failedPrecondition, 0, out)
    | some (hd, payload, _) => do
      let (c, r) ← Record.openFlat L f s.conn (.buf hd) payload out
      let s := { s with conn := c, evs := s.evs ++ [.opened r] }
      if r.code ≠ .ok then return (s, convertCode r.code, 0, r.out)
      else return (s, .ok, r.written, r.out)

theorem unprotectInto_flat {L : Lib} {a : Record.CreateArgs} {f : Record.Fault} {s : State}
    {vs : List Iovec} {ob : Bytes} (hr : Record.Reach L a s.conn s.evs)
    (hv : Spec.NonEmptyBufs vs) (hf : f.evp = .none)
    (hob : numberBytesToUnprotect s (flat vs).length ≤ ob.length) :
    unprotectInto L f s vs (.buf ob) = openInto L f.key s (flat vs) (.buf ob) := by
  obtain ⟨su, hsu⟩ := hr.suite
  have hfl := hv.wf.totalLen_eq
  have h22 : s.conn.recordOverhead = 22 := Record.recordOverhead_eq _
  have hk : kHeaderLength = 5 := rfl
  unfold openInto unprotectInto
  unfold numberBytesToUnprotect at hob ⊢
  rw [h22] at hob ⊢
  rw [hfl]
  by_cases hlt : (flat vs).length < 22
  · simp only [if_pos hlt, if_true]
  rw [if_neg hlt] at hob ⊢
  rw [if_neg (by omega), if_neg hlt]
  rcases walk_spec vs 0 (cursor_start hv) with ⟨hno, hw⟩ |
    ⟨hd, payload, rest, vs1, on1, ps, vs', on2, hfr, k1, k2, k3, k4, k5, k6, k7⟩
  · simp only [ahead, List.drop_zero] at hno
    rw [hno]
    rcases hw with hw | ⟨hd, v', o', h1, h2⟩
    · simp only [hw, exec_bind_ok, exec_pure]
    · simp only [h1, h2, exec_bind_ok, exec_pure]
  · simp only [ahead, List.drop_zero] at hfr
    obtain ⟨g1, g2⟩ := firstRecord_some hfr
    have hl : (flat vs).length = 5 + payload.length + rest.length := by
      rw [g1, g2.header]; simp [Spec.recordHeader]; omega
    rw [hfr]
    simp only [k1, k2, exec_bind_ok, State.crypterUnprotect]
    rw [Record.unprotect_flat L f s.conn (.buf hd) ps (.buf ob) (hr.good hsu).1.nonce k5 trivial hf
      (by rw [k5.totalLen_eq, k4]; simp only [Iovec.len]; omega), k4]
    cases Record.openFlat L f.key s.conn (.buf hd) payload (.buf ob) with
    | error e => rfl
    | ok x => rfl

theorem unprotectInto_room {L : Lib} {a : Record.CreateArgs} {f : Record.Fault} {s s' : State}
    {vs : List Iovec} {ob ob' : Bytes} {n out} (hr : Record.Reach L a s.conn s.evs)
    (hv : Spec.NonEmptyBufs vs) (hf : f.evp = .none)
    (hob : ob.length = numberBytesToUnprotect s (flat vs).length) (hob' : ob.length ≤ ob'.length)
    (h : unprotectInto L f s vs (.buf ob') = .ok (s', .ok, n, out)) :
    ∃ s'' out', unprotectInto L f s vs (.buf ob) = .ok (s'', .ok, n, out') ∧
      s''.conn = s'.conn ∧ out'.bytes.take n = out.bytes.take n ∧ n ≤ ob.length := by
  rw [unprotectInto_flat hr hv hf (by omega)] at h
  rw [unprotectInto_flat hr hv hf (by omega)]
  unfold openInto at h ⊢
  split at h
  · cases h
  next hlt =>
  rw [if_neg hlt]
  cases hfr : Spec.firstRecord (flat vs) with
  | none => rw [hfr] at h; cases h
  | some x =>
    obtain ⟨hd, payload, rest⟩ := x
    rw [hfr] at h
    simp only [exec_bind_eq_ok] at h ⊢
    obtain ⟨⟨c, r⟩, h1, h2⟩ := h
    by_cases hc : r.code ≠ .ok
    · simp only [if_pos hc] at h2
      have h3 := congrArg (Except.map (fun x => x.2.1)) h2
      simp only [exec_pure, Except.map, Except.ok.injEq] at h3
      exact absurd (convertCode_ok.1 h3) hc
    simp only [if_neg hc] at h2
    cases h2
    obtain ⟨g1, g2⟩ := firstRecord_some hfr
    have hl : (flat vs).length = 5 + payload.length + rest.length := by
      rw [g1, g2.header]; simp [Spec.recordHeader]; omega
    have h22 : s.conn.recordOverhead = 22 := Record.recordOverhead_eq _
    have hnum : numberBytesToUnprotect s (flat vs).length = (flat vs).length - 5 := by
      unfold numberBytesToUnprotect
      rw [h22, if_neg hlt]
    unfold Record.openFlat at h1 ⊢
    by_cases q1 : s.conn.closeNotify = true
    · rw [if_pos q1] at h1; cases h1; exact absurd (by simp) hc
    rw [if_neg q1] at h1 ⊢
    by_cases q2 : (Iovec.buf hd).len + payload.length < 22
    · rw [if_pos q2] at h1; cases h1; exact absurd (by simp) hc
    rw [if_neg q2] at h1 ⊢
    by_cases q3 : (Iovec.buf hd).len + payload.length > 16406
    · rw [if_pos q3] at h1; cases h1; exact absurd (by simp) hc
    rw [if_neg q3] at h1 ⊢
    by_cases q4 : Iovec.buf hd ≠ .buf (Spec.recordHeader payload.length)
    · rw [if_pos q4] at h1; cases h1; exact absurd (by simp) hc
    rw [if_neg q4] at h1 ⊢
    by_cases q5 : HalfConn.blocked s.conn.inC = true
    · rw [if_pos q5] at h1; cases h1; exact absurd (by simp) hc
    rw [if_neg q5] at h1 ⊢
    cases hp : Spec.aeadOpen L s.conn.inC.aead.alg s.conn.inC.aead.key
        (Spec.recordNonce s.conn.inC.nonce s.conn.inC.seq.toNat)
        (Spec.recordHeader payload.length) payload with
    | none => simp only [hp] at h1; cases h1; exact absurd (by simp) hc
    | some p =>
    simp only [hp, Iovec.bytes] at h1 ⊢
    rcases Record.dispatch_tail L f.key { s.conn with inC := s.conn.inC.bump } (some ⟨s.conn.inC.aead.key,
      Spec.recordNonce s.conn.inC.nonce s.conn.inC.seq.toNat, Spec.recordHeader payload.length, payload⟩) p (ob'.drop p.length) (ob.drop p.length) with
      ⟨e, d1, _⟩ | ⟨c', r1, r2, d1, d2, d3, d4, d5, d6⟩
    · rw [h1] at d1; cases d1
    · rw [h1] at d1
      cases d1
      refine ⟨_, _, ⟨(c, r2), d2, by rw [if_neg (by rw [← d3]; exact hc), d4]; rfl⟩, rfl, d5.symm, ?_⟩
      have := Aead.aeadOpen_length hp
      omega

end S2A.Frame
