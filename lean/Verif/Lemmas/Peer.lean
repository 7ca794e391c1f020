import Verif.Lemmas.Session
import Verif.Lemmas.Heard
import Verif.Spec.Peer
/-
A frame protector that receives the records of a conformant peer.
-/
namespace S2A.Handler
open Spec

theorem len24_of {n : Nat} (h : n < 2 ^ 24) :
    len24 (UInt8.ofNat (n / 65536)) (UInt8.ofNat (n / 256)) (UInt8.ofNat n) = n := by
  simp only [len24, UInt8.toNat_ofNat']
  omega

theorem ticket_length {m : Bytes} (h : TicketMessage m) :
    m.length = 4 + bodyLen m ∧ 4 < m.length ∧ m.head? = some ticketType := by
  obtain ⟨body, rfl, hne, hl⟩ := h
  have := List.length_pos_iff.2 hne
  refine ⟨?_, by simp [hsMessage]; omega, rfl⟩
  simp only [hsMessage, bodyLen, len24_of hl, List.length_cons]
  omega

theorem incomplete_prefix {q more : Bytes} (h : (q ++ more).length = 4 + bodyLen (q ++ more))
    (hm : more ≠ []) : Incomplete q := by
  intro h4
  rw [bodyLen_append h4, List.length_append] at h
  have := List.length_pos_iff.2 hm
  omega

theorem hsSplit_messages {ms : List Bytes} (h : ∀ m ∈ ms, m.length = 4 + bodyLen m) (s : Bytes) :
    hsSplit (ms.flatten ++ s) = (ms ++ (hsSplit s).1, (hsSplit s).2) := by
  induction ms with
  | nil => simp
  | cons m ms ih =>
    rw [List.flatten_cons, List.append_assoc, hsSplit_cons (h m (by simp)),
      ih (fun x hx => h x (by simp [hx]))]
    rfl

theorem verdict_tickets {ms : List Bytes} (h : ∀ m ∈ ms, TicketMessage m) (ns : List Bytes)
    (q : Bytes) : verdict (ms ++ ns) q = verdict ns q := by
  induction ms with
  | nil => rfl
  | cons m ms ih =>
    obtain ⟨_, h2, h3⟩ := ticket_length (h m (by simp))
    rw [List.cons_append, verdict, if_pos h3, if_neg (by omega), ih (fun x hx => h x (by simp [hx]))]

/-- The beginning of a message of the given kind, or nothing. -/
theorem head_prefix {q more : Bytes} {t : UInt8} (h : (q ++ more).head? = some t) :
    q = [] ∨ q.head? = some t := by
  cases q with
  | nil => exact Or.inl rfl
  | cons a q => exact Or.inr h

theorem split_tickets {p content q more : Bytes} {ms : List Bytes}
    (he : p ++ content = ms.flatten ++ q) (hms : ∀ m ∈ ms, TicketMessage m) (hm : more ≠ [])
    (hq : TicketMessage (q ++ more)) :
    hsSplit (p ++ content) = (ms, q) ∧ verdict ms q = .accept ∧
      mentionsType updateType ms q = false ∧
      (q = [] ∨ q.head? = some ticketType ∨ q.head? = some updateType) := by
  obtain ⟨q1, _, q3⟩ := ticket_length hq
  have hh := head_prefix q3
  refine ⟨?_, ?_, ?_, hh.imp id Or.inl⟩
  · rw [he, hsSplit_messages (fun m hm => (ticket_length (hms m hm)).1),
      hsSplit_of_incomplete (incomplete_prefix q1 hm)]
    simp
  · have := verdict_tickets hms [] q
    rw [List.append_nil] at this
    rw [this, verdict, if_pos (hh.imp id Or.inl)]
  · unfold mentionsType
    rw [List.any_eq_false]
    intro m hm
    rcases List.mem_append.1 hm with hm | hm
    · rw [(ticket_length (hms m hm)).2.2]; decide
    · obtain rfl := List.mem_singleton.1 hm
      rcases hh with rfl | hh
      · decide
      · rw [hh]; decide

theorem split_update {p content : Bytes} {k : UInt8} {ms : List Bytes}
    (he : p ++ content = ms.flatten ++ keyUpdateMessage k) (hms : ∀ m ∈ ms, TicketMessage m) :
    hsSplit (p ++ content) = (ms ++ [keyUpdateMessage k], []) ∧
      verdict (ms ++ [keyUpdateMessage k]) [] = .accept ∧
      mentionsType updateType (ms ++ [keyUpdateMessage k]) [] = true := by
  refine ⟨?_, ?_, ?_⟩
  · have h1 : hsSplit (keyUpdateMessage k) = ([keyUpdateMessage k], []) := by
      have := hsSplit_cons (m := keyUpdateMessage k) (s := []) rfl
      rw [hsSplit_nil, List.append_nil] at this
      exact this
    rw [he, hsSplit_messages (fun m hm => (ticket_length (hms m hm)).1), h1]
  · rw [verdict_tickets hms]; rfl
  · unfold mentionsType
    rw [List.any_eq_true]
    exact ⟨keyUpdateMessage k, by simp, rfl⟩

end S2A.Handler

namespace S2A.Record
open HalfConn (At bump Good)
open Handler (Rel TInv Safe)
open Spec (hsSplit verdict mentionsType ticketType updateType PeerRecords)

/-- A connection that has read the bytes `q` of a handshake message not yet complete. -/
structure Listening (c : Conn) (q : Bytes) : Prop where
  notClosed : c.closeNotify = false
  safe : Safe c.handler
  tinv : TInv c.handler
  rel : Rel c.handler q
  idle : q = [] → c.expecting = false
  head : q = [] ∨ q.head? = some ticketType ∨ q.head? = some updateType

theorem retrieveAndSend_listening {c : Conn} {q : Bytes} (s : Safe c.handler) (t : TInv c.handler)
    (r : Rel c.handler q) : ∃ c', retrieveAndSend c = .ok c' ∧ Safe c'.handler ∧ TInv c'.handler ∧
      Rel c'.handler q := by
  obtain ⟨c', e, s'⟩ := retrieveAndSend_safe s
  refine ⟨c', e, s', ?_⟩
  rcases retrieveAndSend_inv e with ⟨h1, _⟩ | ⟨_, h2, h3, _⟩
  · rw [h1]; exact ⟨t, r⟩
  · rw [h3]; exact ⟨tinv_retrieved, rel_retrieved r h2⟩

theorem handleTickets_listening {c : Conn} {q : Bytes} (s : Safe c.handler) (t : TInv c.handler)
    (r : Rel c.handler q) (x : Handler.Result) : ∃ c', handleTickets c x = .ok c' ∧
      Safe c'.handler ∧ TInv c'.handler ∧ Rel c'.handler q ∧ c'.inC = c.inC ∧
      c'.closeNotify = c.closeNotify ∧ (c.expecting = false → c'.expecting = false) := by
  obtain ⟨c', e, s'⟩ := handleTickets_safe s x
  refine ⟨c', e, s', ?_⟩
  rcases handleTickets_cases e with ⟨_, rfl⟩ | ⟨_, _, rfl⟩ | ⟨_, _, _, c1, h1, rfl⟩
  · exact ⟨t, r, rfl, rfl, id⟩
  · exact ⟨t, r, rfl, rfl, id⟩
  · obtain ⟨c2, e2, _, t2, r2⟩ := retrieveAndSend_listening (c := { c with phase := .receiving }) s t r
    rw [h1] at e2
    cases e2
    obtain ⟨f1, _, f3, _⟩ := retrieveAndSend_frame h1
    exact ⟨t2, r2, f1, f3, fun _ => rfl⟩

theorem Listening.handshake {L : Lib} {c : Conn} {d : Spec.Dir} {q q' content : Bytes}
    {ms : List Bytes} (hc : Listening c q) (hat : At L c.inC d) (hne : content ≠ [])
    (hs : hsSplit (q ++ content) = (ms, q')) (hv : verdict ms q' = .accept)
    (hq : q' = [] ∨ q'.head? = some ticketType ∨ q'.head? = some updateType) (call) (pad : Nat)
    (tail : Bytes) :
    ∃ c' r, dispatch L .none c call
        (Spec.innerPlaintext content Spec.handshakeType pad ++ tail)
        (Spec.innerPlaintext content Spec.handshakeType pad).length = .ok (c', r) ∧
      r.code = .ok ∧ r.written = 0 ∧
      At L c'.inC (if mentionsType updateType ms q' = true then d.update L else d) ∧
      Listening c' q' := by
  have hu := unpad_inner content Spec.handshakeType pad (by decide)
  rw [dispatch_handshake _ _ _ _ _ _ hu]
  obtain ⟨h', e, r', t', _, _⟩ := (Handler.loop_verdict (ku := false) (tk := false) hc.rel hc.tinv hs
    (Nat.lt_succ_self content.length) hc.head).1 hv
  have e : c.handler.process content = _ := e
  have s' : Safe h' := by
    rcases hc.safe.process content with e2 | ⟨h2, r2, e2, s2⟩
    · rw [e] at e2; cases e2
    · rw [e] at e2; cases e2; exact s2
  simp only [e, exec_bind_ok]
  have hem : content.isEmpty = false := by cases content <;> simp_all
  simp only [hem, Bool.not_false, Bool.true_and, Bool.false_or]
  unfold handleResult
  simp only
  have hex : q' = [] → (!q'.isEmpty) = false := by rintro rfl; rfl
  by_cases hm : mentionsType updateType ms q' = true
  · obtain ⟨hc', st, u1, _, u2, _, u3⟩ := HalfConn.updateKey_spec L .none d.suite c.inC hat.good
    obtain ⟨c', k1, k2, k3, k4, k5, k6, k7⟩ := handleTickets_listening
      (c := { c with handler := h', expecting := !q'.isEmpty, inC := hc' }) s' t' r'
      ⟨!q'.isEmpty, mentionsType updateType ms q', (Spec.finalKeyUpdate ms).getD Handler.kInvalidKeyUpdateType,
        mentionsType ticketType ms q', h'.numFull⟩
    simp only [if_pos hm, u1, exec_bind_ok, u3 rfl, ne_eq, not_true_eq_false, if_false, k1, exec_pure]
    refine ⟨c', _, rfl, rfl, rfl, ?_, ⟨k6.trans hc.notClosed, k2, k3, k4, fun h => k7 (hex h), hq⟩⟩
    rw [k5]
    show At L hc' _
    rw [u2 (u3 rfl)]
    exact hat.updated
  · obtain ⟨c', k1, k2, k3, k4, k5, k6, k7⟩ := handleTickets_listening
      (c := { c with handler := h', expecting := !q'.isEmpty }) s' t' r'
      ⟨!q'.isEmpty, mentionsType updateType ms q', (Spec.finalKeyUpdate ms).getD Handler.kInvalidKeyUpdateType,
        mentionsType ticketType ms q', h'.numFull⟩
    simp only [if_neg hm, k1, exec_bind_ok, exec_pure]
    refine ⟨c', _, rfl, rfl, rfl, ?_, ⟨k6.trans hc.notClosed, k2, k3, k4, fun h => k7 (hex h), hq⟩⟩
    rw [k5]
    exact hat

theorem Listening.data {L : Lib} {c : Conn} {d : Spec.Dir} {content : Bytes}
    (hc : Listening c []) (hat : At L c.inC d) (call) (pad : Nat) (tail : Bytes) :
    ∃ c' r, dispatch L .none c call
        (Spec.innerPlaintext content Spec.appDataType pad ++ tail)
        (Spec.innerPlaintext content Spec.appDataType pad).length = .ok (c', r) ∧
      r.code = .ok ∧ r.written = content.length ∧ r.out.bytes.take r.written = content ∧
      At L c'.inC d ∧ Listening c' [] := by
  have hu := unpad_inner content Spec.appDataType pad (by decide)
  rw [dispatch_appData _ _ _ _ _ _ hu]
  have htk : List.take content.length (Spec.innerPlaintext content Spec.appDataType pad ++ tail) =
      content := by simp [Spec.innerPlaintext]
  rw [if_neg (by simp [hc.idle rfl])]
  by_cases hph : c.phase = .receiving
  · rw [if_pos hph]
    obtain ⟨c', g1, g2, g3, g4⟩ := retrieveAndSend_listening hc.safe hc.tinv hc.rel
    obtain ⟨f1, f2, f3, f4, f5, _⟩ := retrieveAndSend_frame g1
    rw [g1]
    refine ⟨_, _, rfl, rfl, rfl, htk, ?_,
      ⟨f3.trans hc.notClosed, g2, g3, g4, fun _ => f5.trans (hc.idle rfl), Or.inl rfl⟩⟩
    show At L c'.inC d
    rw [f1]; exact hat
  · rw [if_neg hph]
    exact ⟨_, _, rfl, rfl, rfl, htk, hat, hc⟩

theorem Listening.bumped {c : Conn} {q : Bytes} (h : Listening c q) (i) :
    Listening { c with inC := i } q :=
  ⟨h.notClosed, h.safe, h.tinv, h.rel, h.idle, h.head⟩

theorem inner_length (content : Bytes) (t : UInt8) (pad : Nat) :
    (Spec.innerPlaintext content t pad).length = content.length + pad + 1 := by
  simp [Spec.innerPlaintext]; omega

/-- The next record of a conformant peer: how it is sealed, and what becomes of it. -/
theorem peer_step {L : Lib} {d : Spec.Dir} {q w x : Bytes} {rest}
    (h : PeerRecords L False d q ((w, x) :: rest)) :
    ∃ inner d' q', w = d.protect L inner ∧ 1 ≤ inner.length ∧ inner.length ≤ 16385 ∧
      d.seq < 2 ^ 64 ∧ PeerRecords L False d' q' rest ∧
      ∀ (c : Conn) call tail, At L c.inC d → Listening c q →
        ∃ c' r, dispatch L .none { c with inC := bump c.inC } call (inner ++ tail) inner.length =
            .ok (c', r) ∧ r.code = .ok ∧ r.written = x.length ∧ r.out.bytes.take r.written = x ∧
          At L c'.inC d' ∧ Listening c' q' := by
  cases h with
  | data content pad hl hs h =>
    refine ⟨_, _, _, rfl, ?_, ?_, hs, h, fun c call tail hat hc => ?_⟩
    · rw [inner_length]; omega
    · rw [inner_length]; omega
    · exact (hc.bumped _).data (hat.bump hs) call pad tail
  | tickets ms more content pad he hms hmore ht hne hl hs h =>
    obtain ⟨s1, s2, s3, s4⟩ := Handler.split_tickets he hms hmore ht
    refine ⟨_, _, _, rfl, ?_, ?_, hs, h, fun c call tail hat hc => ?_⟩
    · rw [inner_length]; omega
    · rw [inner_length]; omega
    · obtain ⟨c', r, e1, e2, e3, e4, e5⟩ :=
        (hc.bumped _).handshake (hat.bump hs) hne s1 s2 s4 call pad tail
      rw [s3] at e4
      exact ⟨c', r, e1, e2, e3, by rw [e3]; rfl, e4, e5⟩
  | update ms k content pad he hms hne hl hs h =>
    obtain ⟨s1, s2, s3⟩ := Handler.split_update he hms
    refine ⟨_, _, _, rfl, ?_, ?_, hs, h, fun c call tail hat hc => ?_⟩
    · rw [inner_length]; omega
    · rw [inner_length]; omega
    · obtain ⟨c', r, e1, e2, e3, e4, e5⟩ :=
        (hc.bumped _).handshake (hat.bump hs) hne s1 s2 (Or.inl rfl) call pad tail
      rw [s3, if_pos rfl] at e4
      exact ⟨c', r, e1, e2, e3, by rw [e3]; rfl, e4, e5⟩
  | partOfUpdate _ _ _ _ _ hf => exact hf.elim

end S2A.Record

namespace S2A.Frame
open HalfConn (At)
open Record (Listening)
open Spec (AllocOk PeerRecords IsGiven)

theorem unprotectLoop_peer {L : Lib} {A : Allocator} (hA : AllocOk A) (xs : List (Bytes × Bytes))
    (fuel i : Nat) (s : State) (vs : List Iovec) (on rem : Nat) (done : List (BufId × Bytes))
    (d : Spec.Dir) (q : Bytes) (rest : List (Bytes × Bytes)) (hc : Cursor vs on)
    (hah : ahead vs on = (xs.map (·.1)).flatten) (hrem : rem = (ahead vs on).length)
    (hfuel : rem < fuel) (hxs : PeerRecords L False d q (xs ++ rest)) (hat : At L s.conn.inC d)
    (hr : Listening s.conn q) :
    ∃ s' bufs d' q', unprotectLoop L A (fun _ => .none) fuel i s vs on rem done =
        .ok (s', ⟨.ok, done ++ bufs⟩) ∧ bufs.map (·.2) = xs.map (·.2) ∧ At L s'.conn.inC d' ∧
      Listening s'.conn q' ∧ PeerRecords L False d' q' rest := by
  induction xs generalizing fuel i s vs on rem done d q with
  | nil =>
    cases fuel with
    | zero => omega
    | succ fuel =>
      unfold unprotectLoop
      have h0 : rem = 0 := by rw [hrem, hah]; rfl
      have h22 : s.conn.recordOverhead = 22 := Record.recordOverhead_eq _
      rw [if_neg (by rw [h22, h0]; omega)]
      exact ⟨s, [], d, q, by simp, rfl, hat, hr, hxs⟩
  | cons x xs ih =>
    obtain ⟨w, x⟩ := x
    cases fuel with
    | zero => omega
    | succ fuel =>
      unfold unprotectLoop
      obtain ⟨inner, d1, q1, hw, hl1, hl2, hseq, hrest, hdis⟩ := Record.peer_step hxs
      obtain ⟨payload, p1, p2, p3⟩ := Record.protect_parts L d inner hl2
      have hwh : Spec.Whole (Spec.recordHeader payload.length) payload := ⟨by omega, rfl⟩
      have hsplit : ahead vs on = Spec.recordHeader payload.length ++ payload ++
          (xs.map (·.1)).flatten := by
        rw [hah, ← p1, ← hw]; rfl
      have hfr := firstRecord_whole hwh (xs.map (·.1)).flatten
      rw [← hsplit] at hfr
      have hlen : rem = 5 + payload.length + (xs.map (·.1)).flatten.length := by
        rw [hrem, hsplit]; simp [Spec.recordHeader]; omega
      have h22 : s.conn.recordOverhead = 22 := Record.recordOverhead_eq _
      rw [if_pos (by rw [h22]; omega)]
      rcases walk_spec vs on hc with ⟨hno, _⟩ |
        ⟨hd, payload', rest', vs1, on1, ps, vs', on2, hfr', k1, k2, k3, k4, k5, k6, k7⟩
      · rw [hno] at hfr; cases hfr
      rw [hfr] at hfr'
      cases hfr'
      obtain ⟨ob, hd1, hd2⟩ := hA s.next payload.length
      rw [k3] at k2
      obtain ⟨call, hun⟩ := Record.unprotect_next (f := .none) (ob := ob) hat hseq hr.notClosed
        ⟨hl1, hl2⟩ rfl p2 p3 k4 k5 (by omega)
      obtain ⟨c', r, e1, e2, e3, e4, e5, e6⟩ := hdis s.conn (some call) (ob.drop inner.length) hat hr
      have e1 := hun.trans e1
      simp only [k1, exec_bind_ok, k3, k2, State.alloc, hd1, State.crypterUnprotect, e1, exec_pure]
      rw [if_neg (not_not_intro e2)]
      simp only [subSize_ok (show kHeaderLength + payload.length ≤ rem by simp [kHeaderLength]; omega),
        exec_bind_ok]
      obtain ⟨s', bufs, d2, q2, z1, z2, z3, z4, z5⟩ := ih fuel (i + 1) { s with conn := c', next := s.next + 1, mem := s.mem ++ [.alloc (.heap s.next) payload.length], evs := s.evs ++ [.opened r] } vs' on2
        (rem - (kHeaderLength + payload.length)) (done ++ [(.heap s.next, r.out.bytes.take r.written)])
        d1 q1 k6 k7 (by rw [k7, hlen]; simp [kHeaderLength]) (by simp only [kHeaderLength]; omega)
        hrest e5 e6
      rw [z1]
      exact ⟨s', (.heap s.next, r.out.bytes.take r.written) :: bufs, d2, q2, by simp,
        by simp [z2, e4], z3, z4, z5⟩

theorem unprotect_peer {L : Lib} {A : Allocator} (hA : AllocOk A) {xs rest : List (Bytes × Bytes)}
    {s : State} {vs : List Iovec} {d : Spec.Dir} {q : Bytes} (hne : xs ≠ [])
    (hv : Spec.NonEmptyBufs vs) (hb : flat vs = (xs.map (·.1)).flatten)
    (hxs : PeerRecords L False d q (xs ++ rest)) (hat : At L s.conn.inC d)
    (hr : Listening s.conn q) :
    ∃ s' bufs d' q', unprotect L A (fun _ => .none) s vs = .ok (s', ⟨.ok, bufs⟩) ∧
      bufs.map (·.2) = xs.map (·.2) ∧ At L s'.conn.inC d' ∧
      Listening s'.conn q' ∧ PeerRecords L False d' q' rest := by
  unfold unprotect
  simp only
  have hfl := hv.wf.totalLen_eq
  have h22 : s.conn.recordOverhead = 22 := Record.recordOverhead_eq _
  have hlen : 22 ≤ (flat vs).length := by
    cases xs with
    | nil => exact absurd rfl hne
    | cons x xs =>
      obtain ⟨w, x⟩ := x
      obtain ⟨inner, _, _, hw, hl1, hl2, _⟩ := Record.peer_step hxs
      obtain ⟨payload, p1, p2, p3⟩ := Record.protect_parts L d inner hl2
      rw [hb, List.map_cons, List.flatten_cons, hw, p1]
      simp [Spec.recordHeader]; omega
  rw [if_neg (by rw [h22]; omega)]
  have := unprotectLoop_peer hA xs (totalLen vs + 1) 0 s vs 0 (totalLen vs) [] d q rest
    (cursor_start hv) (by simp only [ahead, List.drop_zero]; exact hb) (by simp [ahead, hfl])
    (by omega) hxs hat hr
  simpa only [List.nil_append] using this

theorem unprotectInto_peer {L : Lib} {w x : Bytes} {rest : List (Bytes × Bytes)}
    {s : State} {vs : List Iovec} {d : Spec.Dir} {q ob : Bytes}
    (hv : Spec.NonEmptyBufs vs) (hb : flat vs = w) (hob : w.length ≤ ob.length + 5)
    (hxs : PeerRecords L False d q ((w, x) :: rest)) (hat : At L s.conn.inC d)
    (hr : Listening s.conn q) :
    ∃ s' n out d' q', unprotectInto L .none s vs (.buf ob) = .ok (s', .ok, n, out) ∧
      out.bytes.take n = x ∧ At L s'.conn.inC d' ∧
      Listening s'.conn q' ∧ PeerRecords L False d' q' rest := by
  obtain ⟨inner, d1, q1, hw, hl1, hl2, hseq, hrest, hdis⟩ := Record.peer_step hxs
  obtain ⟨payload, p1, p2, p3⟩ := Record.protect_parts L d inner hl2
  have hwh : Spec.Whole (Spec.recordHeader payload.length) payload := ⟨by omega, rfl⟩
  have hfr := firstRecord_whole hwh []
  rw [List.append_nil, ← p1, ← hw, ← hb] at hfr
  have hwl : w.length = 5 + payload.length := by
    rw [hw, p1]; simp [Spec.recordHeader]; omega
  have hfl := hv.wf.totalLen_eq
  have h22 : s.conn.recordOverhead = 22 := Record.recordOverhead_eq _
  unfold unprotectInto
  rw [if_neg (by
    unfold numberBytesToUnprotect
    rw [h22, hfl, hb, hwl, if_neg (by omega)]
    simp only [kHeaderLength]; omega)]
  rcases walk_spec vs 0 (cursor_start hv) with ⟨hno, _⟩ |
    ⟨hd, payload', rest', vs1, on1, ps, vs', on2, hfr', k1, k2, k3, k4, k5, k6, k7⟩
  · simp only [ahead, List.drop_zero] at hno; rw [hno] at hfr; cases hfr
  simp only [ahead, List.drop_zero] at hfr'
  rw [hfr] at hfr'
  cases hfr'
  rw [k3] at k2
  obtain ⟨call, hun⟩ := Record.unprotect_next (f := .none) (ob := ob) hat hseq hr.notClosed
    ⟨hl1, hl2⟩ rfl p2 p3 k4 k5 (by omega)
  obtain ⟨c', r, e1, e2, e3, e4, e5, e6⟩ := hdis s.conn (some call) (ob.drop inner.length) hat hr
  have e1 := hun.trans e1
  simp only [k1, exec_bind_ok, k3, k2, State.crypterUnprotect, e1, exec_pure]
  rw [if_neg (not_not_intro e2)]
  exact ⟨_, _, _, d1, q1, rfl, e4, e5, e6, hrest⟩

theorem Listening.created {L : Lib} {o : Options} {s : State} (h : Created L o s) :
    Listening s.conn [] := by
  have hr := Ready.created h
  obtain ⟨_, _, _, hc, _⟩ := created_inv h
  have hi := Record.Inv.created hc
  exact ⟨hr.notClosed, hr.safe, hi.tinv, (hi.sane rfl).1, fun _ => hr.idle, Or.inl rfl⟩

theorem Listening.out {c c' : Record.Conn} {q : Bytes} (h : Listening c q)
    (he : c' = { c with outC := c'.outC }) : Listening c' q := by
  rw [he]
  exact ⟨h.notClosed, h.safe, h.tinv, h.rel, h.idle, h.head⟩

theorem run_peer {L : Lib} {A : Allocator} (hA : AllocOk A) {ops : List Op}
    {recs : List (Bytes × Bytes)} (hg : IsGiven ops recs) {o : Options} {s : State} {d : Spec.Dir}
    {q : Bytes} (hs : Reach L A o s) (hp : PeerRecords L False d q recs) (hat : At L s.conn.inC d)
    (hr : Listening s.conn q) :
    ∃ s' evs, run L A s ops = .ok (s', evs) ∧ Spec.ReceivesOk ops evs ∧
      Spec.receivedPieces ops evs = recs.map (·.2) := by
  induction hg generalizing s d q with
  | nil => exact ⟨s, [], rfl, trivial, rfl⟩
  | protect f vs hw hg ih =>
    obtain ⟨s1, res, e, _, hc, _⟩ := protect_call (A := A) (f := f) (vs := vs) hA hs.conn.1
    have hst : step L A s (.protect f vs) = .ok (s1, .result res) := by simp [step, e]
    obtain ⟨s2, evs, g1, g2, g3⟩ := ih (hs.step hst) hp (by rw [hc]; exact hat) (Listening.out hr hc)
    exact ⟨s2, .result res :: evs, by simp [run, hst, g1], g2, g3⟩
  | protectInto f vs out hw hg ih =>
    obtain ⟨s1, st, ob', e, _, hc, _⟩ := protectInto_call (f := f) (vs := vs) (id := .caller)
      (ob := out) hs.conn.1
    have hst : step L A s (.protectInto f vs (.buf out)) =
      .ok (s1, .status st (Iovec.buf ob').len (.buf ob')) := by simp [step, e]
    obtain ⟨s2, evs, g1, g2, g3⟩ := ih (hs.step hst) hp (by rw [hc.conn]; exact hat)
      (Listening.out hr hc.conn)
    exact ⟨s2, .status st (Iovec.buf ob').len (.buf ob') :: evs, by simp only [run, hst, g1, exec_bind_ok, exec_pure], g2, g3⟩
  | unprotect vs batch hb hv hf hg ih =>
    obtain ⟨s1, bufs, d1, q1, e1, e2, e3, e4, e5⟩ := unprotect_peer hA hb hv hf hp hat hr
    have hst : step L A s (.unprotect (fun _ => .none) vs) = .ok (s1, .result ⟨.ok, bufs⟩) := by
      simp [step, e1]
    obtain ⟨s2, evs, g1, g2, g3⟩ := ih (hs.step hst) e5 e3 e4
    refine ⟨s2, .result ⟨.ok, bufs⟩ :: evs, by simp [run, hst, g1], ⟨rfl, g2⟩, ?_⟩
    simp [Spec.receivedPieces, g3, e2]
  | unprotectInto vs record out hv hf hl hg ih =>
    obtain ⟨s1, n, out', d1, q1, e1, e2, e3, e4, e5⟩ := unprotectInto_peer hv hf hl hp hat hr
    have hst : step L A s (.unprotectInto .none vs (.buf out)) = .ok (s1, .status .ok n out') := by
      simp [step, e1]
    obtain ⟨s2, evs, g1, g2, g3⟩ := ih (hs.step hst) e5 e3 e4
    refine ⟨s2, .status .ok n out' :: evs, by simp [run, hst, g1], ⟨rfl, g2⟩, ?_⟩
    simp [Spec.receivedPieces, g3, e2]

end S2A.Frame
