import Verif.Lemmas.Peer
/-
A frame protector that receives the records of a peer that splits a key update.
-/
namespace S2A.Handler
open Spec

theorem split_partOfUpdate {p content q more : Bytes} {k : UInt8} {ms : List Bytes}
    (he : p ++ content = ms.flatten ++ q) (hms : ∀ m ∈ ms, TicketMessage m) (hq0 : q ≠ [])
    (hm : more ≠ []) (hq : q ++ more = keyUpdateMessage k) :
    hsSplit (p ++ content) = (ms, q) ∧ verdict ms q = .accept ∧
      mentionsType updateType ms q = true ∧ q.head? = some updateType := by
  have hh : q.head? = some updateType :=
    (head_prefix (t := updateType) (by rw [hq]; rfl)).resolve_left hq0
  refine ⟨?_, ?_, ?_, hh⟩
  · rw [he, hsSplit_messages (fun m hm => (ticket_length (hms m hm)).1),
      hsSplit_of_incomplete (incomplete_prefix (by rw [hq]; rfl) hm)]
    simp
  · have := verdict_tickets hms [] q
    rw [List.append_nil] at this
    rw [this, verdict, if_pos (Or.inr (Or.inr hh))]
  · unfold mentionsType
    rw [List.any_eq_true]
    exact ⟨q, by simp, by rw [hh]; decide⟩

end S2A.Handler

namespace S2A.Record
open HalfConn (At bump Good)
open Spec (hsSplit verdict mentionsType ticketType updateType PeerRecords PeerSends EndsInUpdate
  OpensAt)

/-- A record of the right form that does not open is refused. -/
theorem unprotect_unopened {L : Lib} {f : Fault} {c : Conn} {d : Spec.Dir} {payload : Bytes}
    {ps : List Iovec} {ob : Bytes} (hat : At L c.inC d) (hf : f.evp = .none)
    (hno : d.open L (Spec.recordHeader payload.length) payload = none)
    (hps : flat ps = payload) (hwf : AllWF ps) (hob : payload.length ≤ ob.length + 16) :
    ∃ c' r, unprotect L f c (.buf (Spec.recordHeader payload.length)) ps (.buf ob) = .ok (c', r) ∧
      r.code ≠ .ok := by
  rw [unprotect_flat L f c _ ps (.buf ob) hat.good.nonce hwf trivial hf
    (by rw [hwf.totalLen_eq, hps]; simp only [Iovec.len]; omega), hps]
  unfold openFlat
  by_cases h1 : c.closeNotify = true
  · rw [if_pos h1]; exact ⟨_, _, rfl, by simp⟩
  rw [if_neg h1]
  by_cases h2 : (Iovec.buf (Spec.recordHeader payload.length)).len + payload.length < 22
  · rw [if_pos h2]; exact ⟨_, _, rfl, by simp⟩
  rw [if_neg h2]
  by_cases h3 : (Iovec.buf (Spec.recordHeader payload.length)).len + payload.length > 16406
  · rw [if_pos h3]; exact ⟨_, _, rfl, by simp⟩
  rw [if_neg h3, if_neg (by simp)]
  by_cases h4 : HalfConn.blocked c.inC = true
  · rw [if_pos h4]; exact ⟨_, _, rfl, by simp⟩
  rw [if_neg h4]
  have hseq : d.seq < 2 ^ 64 := by
    have h5 := hat.blocked
    have h6 := hat.le
    have : d.seq ≠ 2 ^ 64 := fun h => h4 (by rw [h5]; exact decide_eq_true h)
    omega
  simp only [hat.nonce hseq, hat.key, hat.good.alg]
  unfold Spec.Dir.open at hno
  rw [hno]
  exact ⟨_, _, rfl, by simp⟩

/-- Records whose reader runs into one that does not open.  `d` and `q` are the position of the
reader and what it has read of an incomplete message. -/
inductive Doomed (L : Lib) : Spec.Dir → Bytes → List (Bytes × Bytes) → Prop
  | now {d q x inner rest w} (d0 : Spec.Dir) : w = d0.protect L inner → 1 ≤ inner.length →
      inner.length ≤ 16385 → ¬ OpensAt L d w → Doomed L d q ((w, x) :: rest)
  | later {d d' : Spec.Dir} {q q' x rest} (inner : Bytes) : 1 ≤ inner.length →
      inner.length ≤ 16385 → d.seq < 2 ^ 64 → Doomed L d' q' rest →
      (∀ (c : Conn) call tail, At L c.inC d → Listening c q →
        ∃ c' r, dispatch L .none { c with inC := bump c.inC } call (inner ++ tail) inner.length =
            .ok (c', r) ∧ r.code = .ok ∧ At L c'.inC d' ∧ Listening c' q') →
      Doomed L d q ((d.protect L inner, x) :: rest)

theorem Doomed.split {L : Lib} {d : Spec.Dir} {q q' w x y inner : Bytes} {rest}
    (h : EndsInUpdate L d q q' w) (hl1 : 1 ≤ inner.length) (hl2 : inner.length ≤ 16385)
    (hno : ¬ OpensAt L (d.next.update L) (d.next.protect L inner)) :
    Doomed L d q ((w, y) :: (d.next.protect L inner, x) :: rest) := by
  obtain ⟨ms, k, more, content, pad, he, hms, hq0, hmore, hq, hne, hl, hs⟩ := h
  obtain ⟨s1, s2, s3, s4⟩ := Handler.split_partOfUpdate he hms hq0 hmore hq
  refine .later (d' := d.next.update L) (q' := q') _ (by rw [inner_length]; omega)
    (by rw [inner_length]; omega) hs (.now _ rfl hl1 hl2 hno) fun c call tail hat hc => ?_
  obtain ⟨c', r, e1, e2, e3, e4, e5⟩ :=
    (hc.bumped _).handshake (hat.bump hs) hne s1 s2 (Or.inr (Or.inr s4)) call pad tail
  rw [s3, if_pos rfl] at e4
  exact ⟨c', r, e1, e2, e4, e5⟩

theorem Doomed.sends {L : Lib} {d d' : Spec.Dir} {q q' : Bytes} {recs rest}
    (h : PeerSends L d q recs d' q') (hd : Doomed L d' q' rest) : Doomed L d q (recs ++ rest) := by
  induction h with
  | nil => exact hd
  | data content pad hl hs _ ih =>
    refine .later _ (by rw [inner_length]; omega) (by rw [inner_length]; omega) hs (ih hd)
      fun c call tail hat hc => ?_
    obtain ⟨c', r, e1, e2, _, _, e5, e6⟩ := (hc.bumped _).data (hat.bump hs) call pad tail
    exact ⟨c', r, e1, e2, e5, e6⟩
  | tickets ms more content pad he hms hmore ht hne hl hs _ ih =>
    obtain ⟨s1, s2, s3, s4⟩ := Handler.split_tickets he hms hmore ht
    refine .later _ (by rw [inner_length]; omega) (by rw [inner_length]; omega) hs (ih hd)
      fun c call tail hat hc => ?_
    obtain ⟨c', r, e1, e2, e3, e4, e5⟩ :=
      (hc.bumped _).handshake (hat.bump hs) hne s1 s2 s4 call pad tail
    rw [s3] at e4
    exact ⟨c', r, e1, e2, e4, e5⟩
  | update ms k content pad he hms hne hl hs _ ih =>
    obtain ⟨s1, s2, s3⟩ := Handler.split_update he hms
    refine .later _ (by rw [inner_length]; omega) (by rw [inner_length]; omega) hs (ih hd)
      fun c call tail hat hc => ?_
    obtain ⟨c', r, e1, e2, e3, e4, e5⟩ :=
      (hc.bumped _).handshake (hat.bump hs) hne s1 s2 (Or.inl rfl) call pad tail
    rw [s3, if_pos rfl] at e4
    exact ⟨c', r, e1, e2, e4, e5⟩

/-- The next record: its form, and what becomes of it. -/
theorem doomed_step {L : Lib} {d : Spec.Dir} {q w x : Bytes} {rest}
    (h : Doomed L d q ((w, x) :: rest)) :
    ∃ payload : Bytes, w = Spec.recordHeader payload.length ++ payload ∧ 17 ≤ payload.length ∧
      payload.length ≤ 16401 ∧
      ∀ (c : Conn) (ps : List Iovec) (ob : Bytes), At L c.inC d → Listening c q →
        flat ps = payload → AllWF ps → payload.length ≤ ob.length + 16 →
        ∃ c' r, unprotect L .none c (.buf (Spec.recordHeader payload.length)) ps (.buf ob) =
            .ok (c', r) ∧
          (r.code ≠ .ok ∨ r.code = .ok ∧
            ∃ d' q', At L c'.inC d' ∧ Listening c' q' ∧ Doomed L d' q' rest) := by
  cases h with
  | now d0 hw hl1 hl2 hno =>
    rename_i inner
    obtain ⟨payload, p1, p2, p3⟩ := Record.protect_parts L d0 inner hl2
    refine ⟨payload, hw.trans p1, by omega, by omega, fun c ps ob hat hc hps hwf hob => ?_⟩
    have hno' : d.open L (Spec.recordHeader payload.length) payload = none := by
      have e1 : w.take 5 = Spec.recordHeader payload.length := by rw [hw, p1]; rfl
      have e2 : w.drop 5 = payload := by rw [hw, p1]; rfl
      rw [← e1, ← e2, ← Option.not_isSome_iff_eq_none]
      intro hs
      exact hno (Option.isSome_iff_exists.1 hs)
    obtain ⟨c', r, e1, e2⟩ := unprotect_unopened (f := .none) hat rfl hno' hps hwf hob
    exact ⟨c', r, e1, Or.inl e2⟩
  | later inner hl1 hl2 hs hd hdis =>
    obtain ⟨payload, p1, p2, p3⟩ := Record.protect_parts L d inner hl2
    refine ⟨payload, p1, by omega, by omega, fun c ps ob hat hc hps hwf hob => ?_⟩
    obtain ⟨call, hun⟩ := Record.unprotect_next (f := .none) (ob := ob) hat hs hc.notClosed
      ⟨hl1, hl2⟩ rfl p2 p3 hps hwf (by omega)
    obtain ⟨c', r, e1, e2, e5, e6⟩ := hdis c (some call) (ob.drop inner.length) hat hc
    exact ⟨c', r, hun.trans e1, Or.inr ⟨e2, _, _, e5, e6, hd⟩⟩

end S2A.Record

namespace S2A.Frame
open HalfConn (At exec_bind_eq_ok)
open Record (Listening Doomed)
open Spec (AllocOk IsGiven)

theorem convertCode_ne_ok {c : Record.Code} (h : c ≠ .ok) : convertCode c ≠ .ok := by
  cases c <;> simp_all [convertCode]

theorem unprotectLoop_doomed {L : Lib} {A : Allocator} (hA : AllocOk A) (xs : List (Bytes × Bytes))
    (fuel i : Nat) (s : State) (vs : List Iovec) (on rem : Nat) (done : List (BufId × Bytes))
    (d : Spec.Dir) (q : Bytes) (rest : List (Bytes × Bytes)) (hc : Cursor vs on)
    (hah : ahead vs on = (xs.map (·.1)).flatten) (hrem : rem = (ahead vs on).length)
    (hfuel : rem < fuel) (hxs : Doomed L d q (xs ++ rest)) (hat : At L s.conn.inC d)
    (hr : Listening s.conn q) :
    ∃ s' res, unprotectLoop L A (fun _ => .none) fuel i s vs on rem done = .ok (s', res) ∧
      (res.status ≠ .ok ∨
        ∃ d' q', At L s'.conn.inC d' ∧ Listening s'.conn q' ∧ Doomed L d' q' rest) := by
  induction xs generalizing fuel i s vs on rem done d q with
  | nil =>
    cases fuel with
    | zero => omega
    | succ fuel =>
      unfold unprotectLoop
      have h0 : rem = 0 := by rw [hrem, hah]; rfl
      have h22 : s.conn.recordOverhead = 22 := Record.recordOverhead_eq _
      rw [if_neg (by rw [h22, h0]; omega)]
      exact ⟨s, _, rfl, Or.inr ⟨d, q, hat, hr, hxs⟩⟩
  | cons x xs ih =>
    obtain ⟨w, x⟩ := x
    cases fuel with
    | zero => omega
    | succ fuel =>
      unfold unprotectLoop
      obtain ⟨payload, hw, hl1, hl2, hun⟩ := Record.doomed_step hxs
      have hwh : Spec.Whole (Spec.recordHeader payload.length) payload := ⟨by omega, rfl⟩
      have hsplit : ahead vs on = Spec.recordHeader payload.length ++ payload ++
          (xs.map (·.1)).flatten := by
        rw [hah, ← hw]; rfl
      have hfr := firstRecord_whole hwh (xs.map (·.1)).flatten
      rw [← hsplit] at hfr
      have hlen : rem = 5 + payload.length + (xs.map (·.1)).flatten.length := by
        rw [hrem, hsplit]; simp [Spec.recordHeader]; omega
      have h22 : s.conn.recordOverhead = 22 := Record.recordOverhead_eq _
      rw [if_pos (by rw [h22]; omega)]
      rcases walk_spec vs on hc with ⟨hno, _⟩ |
        ⟨hd, payload', rest', vs1, on1, ps, vs', on2, hfr', k1, k2, k3, k4, k5, k6, k7⟩
      · rw [hno] at hfr; cases hfr
      rw [hfr] at hfr'
      cases hfr'
      obtain ⟨ob, hd1, hd2⟩ := hA s.next payload.length
      rw [k3] at k2
      obtain ⟨c', r, e1, e2⟩ := hun s.conn ps ob hat hr k4 k5 (by omega)
      simp only [k1, exec_bind_ok, k3, k2, State.alloc, hd1, State.crypterUnprotect, e1, exec_pure]
      rcases e2 with e2 | ⟨e2, d1, q1, e5, e6, hrest⟩
      · rw [if_pos e2]
        exact ⟨_, _, rfl, Or.inl (convertCode_ne_ok e2)⟩
      rw [if_neg (not_not_intro e2)]
      simp only [subSize_ok (show kHeaderLength + payload.length ≤ rem by simp [kHeaderLength]; omega),
        exec_bind_ok]
      exact ih fuel (i + 1) { s with conn := c', next := s.next + 1, mem := s.mem ++ [.alloc (.heap s.next) payload.length], evs := s.evs ++ [.opened r] } vs' on2
        (rem - (kHeaderLength + payload.length)) (done ++ [(.heap s.next, r.out.bytes.take r.written)])
        d1 q1 k6 k7 (by rw [k7, hlen]; simp [kHeaderLength]) (by simp only [kHeaderLength]; omega)
        hrest e5 e6

theorem unprotect_doomed {L : Lib} {A : Allocator} (hA : AllocOk A) {xs rest : List (Bytes × Bytes)}
    {s : State} {vs : List Iovec} {d : Spec.Dir} {q : Bytes}
    (hv : Spec.NonEmptyBufs vs) (hb : flat vs = (xs.map (·.1)).flatten)
    (hxs : Doomed L d q (xs ++ rest)) (hat : At L s.conn.inC d)
    (hr : Listening s.conn q) :
    ∃ s' res, unprotect L A (fun _ => .none) s vs = .ok (s', res) ∧
      (res.status ≠ .ok ∨
        ∃ d' q', At L s'.conn.inC d' ∧ Listening s'.conn q' ∧ Doomed L d' q' rest) := by
  unfold unprotect
  simp only
  have hfl := hv.wf.totalLen_eq
  by_cases hlt : totalLen vs < s.conn.recordOverhead
  · rw [if_pos hlt]; exact ⟨_, _, rfl, Or.inl (by simp)⟩
  rw [if_neg hlt]
  exact unprotectLoop_doomed hA xs (totalLen vs + 1) 0 s vs 0 (totalLen vs) [] d q rest
    (cursor_start hv) (by simp only [ahead, List.drop_zero]; exact hb) (by simp [ahead, hfl])
    (by omega) hxs hat hr

theorem unprotectInto_doomed {L : Lib} {w x : Bytes} {rest : List (Bytes × Bytes)}
    {s : State} {vs : List Iovec} {d : Spec.Dir} {q ob : Bytes}
    (hv : Spec.NonEmptyBufs vs) (hb : flat vs = w) (hob : w.length ≤ ob.length + 5)
    (hxs : Doomed L d q ((w, x) :: rest)) (hat : At L s.conn.inC d)
    (hr : Listening s.conn q) :
    ∃ s' st n out, unprotectInto L .none s vs (.buf ob) = .ok (s', st, n, out) ∧
      (st ≠ .ok ∨
        ∃ d' q', At L s'.conn.inC d' ∧ Listening s'.conn q' ∧ Doomed L d' q' rest) := by
  obtain ⟨payload, hw, hl1, hl2, hun⟩ := Record.doomed_step hxs
  have hwh : Spec.Whole (Spec.recordHeader payload.length) payload := ⟨by omega, rfl⟩
  have hfr := firstRecord_whole hwh []
  rw [List.append_nil, ← hw, ← hb] at hfr
  have hwl : w.length = 5 + payload.length := by
    rw [hw]; simp [Spec.recordHeader]; omega
  unfold unprotectInto
  by_cases h0 : numberBytesToUnprotect s (totalLen vs) = 0
  · rw [if_pos h0]; exact ⟨_, _, _, _, rfl, Or.inl (by simp)⟩
  rw [if_neg h0]
  rcases walk_spec vs 0 (cursor_start hv) with ⟨hno, _⟩ |
    ⟨hd, payload', rest', vs1, on1, ps, vs', on2, hfr', k1, k2, k3, k4, k5, k6, k7⟩
  · simp only [ahead, List.drop_zero] at hno; rw [hno] at hfr; cases hfr
  simp only [ahead, List.drop_zero] at hfr'
  rw [hfr] at hfr'
  cases hfr'
  rw [k3] at k2
  obtain ⟨c', r, e1, e2⟩ := hun s.conn ps ob hat hr k4 k5 (by omega)
  simp only [k1, exec_bind_ok, k3, k2, State.crypterUnprotect, e1, exec_pure]
  rcases e2 with e2 | ⟨e2, d1, q1, e5, e6, hrest⟩
  · rw [if_pos e2]
    exact ⟨_, _, _, _, rfl, Or.inl (convertCode_ne_ok e2)⟩
  rw [if_neg (not_not_intro e2)]
  exact ⟨_, _, _, _, rfl, Or.inr ⟨d1, q1, e5, e6, hrest⟩⟩

theorem run_doomed {L : Lib} {A : Allocator} (hA : AllocOk A) {ops : List Op}
    {recs : List (Bytes × Bytes)} (hg : IsGiven ops recs) {o : Options} {s s2 : State}
    {d : Spec.Dir} {q : Bytes} {evs : List Event} (hs : Reach L A o s) (hp : Doomed L d q recs)
    (hat : At L s.conn.inC d) (hr : Listening s.conn q) (hrun : run L A s ops = .ok (s2, evs)) :
    ¬ Spec.ReceivesOk ops evs := by
  induction hg generalizing s d q evs with
  | nil => cases hp
  | protect f vs hw hg ih =>
    obtain ⟨s1, res, e, _, hc, _⟩ := protect_call (A := A) (f := f) (vs := vs) hA hs.conn.1
    have hst : step L A s (.protect f vs) = .ok (s1, .result res) := by simp [step, e]
    rw [run, hst, exec_bind_ok] at hrun
    obtain ⟨⟨s3, evs'⟩, g1, g2⟩ := exec_bind_eq_ok.1 hrun
    cases g2
    exact ih (hs.step hst) hp (by rw [hc]; exact hat) (Listening.out hr hc) g1
  | protectInto f vs out hw hg ih =>
    obtain ⟨s1, st, ob', e, _, hc, _⟩ := protectInto_call (f := f) (vs := vs) (id := .caller)
      (ob := out) hs.conn.1
    have hst : step L A s (.protectInto f vs (.buf out)) =
      .ok (s1, .status st (Iovec.buf ob').len (.buf ob')) := by simp [step, e]
    rw [run, hst, exec_bind_ok] at hrun
    obtain ⟨⟨s3, evs'⟩, g1, g2⟩ := exec_bind_eq_ok.1 hrun
    cases g2
    exact ih (hs.step hst) hp (by rw [hc.conn]; exact hat) (Listening.out hr hc.conn) g1
  | unprotect vs batch hb hv hf hg ih =>
    obtain ⟨s1, res, e1, e2⟩ := unprotect_doomed hA hv hf hp hat hr
    have hst : step L A s (.unprotect (fun _ => .none) vs) = .ok (s1, .result res) := by
      simp [step, e1]
    rw [run, hst, exec_bind_ok] at hrun
    obtain ⟨⟨s3, evs'⟩, g1, g2⟩ := exec_bind_eq_ok.1 hrun
    cases g2
    rintro ⟨r1, r2⟩
    rcases e2 with e2 | ⟨d1, q1, e3, e4, e5⟩
    · exact e2 r1
    · exact ih (hs.step hst) e5 e3 e4 g1 r2
  | unprotectInto vs record out hv hf hl hg ih =>
    obtain ⟨s1, st, n, out', e1, e2⟩ := unprotectInto_doomed hv hf hl hp hat hr
    have hst : step L A s (.unprotectInto .none vs (.buf out)) = .ok (s1, .status st n out') := by
      simp [step, e1]
    rw [run, hst, exec_bind_ok] at hrun
    obtain ⟨⟨s3, evs'⟩, g1, g2⟩ := exec_bind_eq_ok.1 hrun
    cases g2
    rintro ⟨r1, r2⟩
    rcases e2 with e2 | ⟨d1, q1, e3, e4, e5⟩
    · exact e2 r1
    · exact ih (hs.step hst) e5 e3 e4 g1 r2

end S2A.Frame
