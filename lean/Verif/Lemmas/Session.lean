import Verif.Lemmas.FrameSession
/-
Invariant of a session between two frame protectors.
-/
namespace S2A.Frame
open HalfConn (At exec_bind_eq_ok)
open Record (Ready)
open Spec (AllocOk Session SessionStep SessionSteps assign messageRecords keyUpdateMessage)

theorem unprotectLoop_outC {L : Lib} {A f fuel i s vs on rem done s' r}
    (h : unprotectLoop L A f fuel i s vs on rem done = .ok (s', r)) :
    s'.conn.outC = s.conn.outC := by
  induction fuel generalizing i s vs on rem done with
  | zero => cases h
  | succ fuel ih =>
    unfold unprotectLoop at h
    split at h
    case isFalse => cases h; rfl
    simp only [exec_bind_eq_ok] at h
    obtain ⟨x, _, h⟩ := h
    split at h
    · cases h; rfl
    simp only [exec_bind_eq_ok] at h
    obtain ⟨x, _, h⟩ := h
    split at h
    · cases h; rfl
    simp only [exec_bind_eq_ok, State.alloc, State.crypterUnprotect] at h
    obtain ⟨⟨s1, r⟩, ⟨⟨c1, r1⟩, h0, h1⟩, h2⟩ := h
    have h3 := (Record.unprotect_frame h0).1
    cases h1
    simp only at h2
    split at h2
    · cases h2
      rw [destroyAll_eq]; exact h3
    · simp only [exec_bind_eq_ok] at h2
      obtain ⟨rem', _, h2⟩ := h2
      exact (ih h2).trans h3

theorem unprotect_outC {L : Lib} {A f s vs s' r} (h : unprotect L A f s vs = .ok (s', r)) :
    s'.conn.outC = s.conn.outC := by
  unfold unprotect at h
  simp only at h
  split at h
  · cases h; rfl
  · exact unprotectLoop_outC h

theorem unprotect_steps {L : Lib} {A f s vs s' r} (h : unprotect L A f s vs = .ok (s', r)) :
    Steps L s s' := by
  unfold unprotect at h
  simp only at h
  split at h
  · cases h; exact .refl _
  · exact unprotectLoop_steps h

/-- Items on the wire, sealed from the first position to the second. -/
inductive Chain (L : Lib) : Spec.Dir → List (Bytes × Bytes) → Spec.Dir → Prop
  | nil (d) : Chain L d [] d
  | message {d d' b rest} : d.seq + Spec.recordCount b.length ≤ 2 ^ 64 →
      Chain L (d.skip (Spec.recordCount b.length)) rest d' →
      Chain L d (((messageRecords L d b).flatten, b) :: rest) d'
  | rekey {d d' rest} (request : UInt8) : d.seq < 2 ^ 64 → Chain L (d.next.update L) rest d' →
      Chain L d ((d.protect L (Spec.innerPlaintext (keyUpdateMessage request) Spec.handshakeType 0),
        []) :: rest) d'

theorem Chain.append {L : Lib} {d d' d'' : Spec.Dir} {xs ys} (h : Chain L d xs d')
    (h' : Chain L d' ys d'') : Chain L d (xs ++ ys) d'' := by
  induction h with
  | nil => exact h'
  | message a _ ih => exact .message a (ih h')
  | rekey k a _ ih => exact .rekey k a (ih h')

/-- What one end sends is what the other is ready to receive. -/
def Link (L : Lib) (s : State) (wire : List (Bytes × Bytes)) (p : State) : Prop :=
  ∃ d d', At L s.conn.outC d' ∧ At L p.conn.inC d ∧ Chain L d wire d'

structure SessionOk (L : Lib) (y : Session) : Prop where
  reach : ∀ b, ∃ a, Record.Reach L a (y.ends b).conn (y.ends b).evs
  ready : ∀ b, Ready (y.ends b).conn
  link : ∀ b, Link L (y.ends b) (y.wire b) (y.ends !b)

theorem Record_protect_update {L : Lib} {f g : _} {c c1 c2 : Record.Conn} {k : UInt8} {ob : Bytes} {r}
    {d : Spec.Dir} (hat : At L c.outC d)
    (h : Record.protect L f c .handshake [.buf (keyUpdateMessage k)] (.buf ob) = .ok (c1, r))
    (hok : r.code = .ok) (hu : Record.updateOutboundKey L g c1 = .ok (c2, .ok)) :
    d.seq < 2 ^ 64 ∧ r.out.bytes.take r.written =
        d.protect L (Spec.innerPlaintext (keyUpdateMessage k) Spec.handshakeType 0) ∧
      c2 = { c with outC := c2.outC } ∧ At L c2.outC (d.next.update L) := by
  obtain ⟨c', r', e, hs⟩ := Record.protect_spec L f c .handshake [.buf (keyUpdateMessage k)] ob
    hat.good.nonce
  rw [h] at e
  cases e
  have hl : totalLen [.buf (keyUpdateMessage k)] = 5 := rfl
  have hfl : flat [.buf (keyUpdateMessage k)] = keyUpdateMessage k := rfl
  rw [Record.ProtectSpec, hl, hfl] at hs
  rcases hs with ⟨_, _, rfl⟩ | ⟨_, _, ⟨_, _, rfl⟩ | ⟨t, ht, hs⟩⟩
  · cases hok
  · cases hok
  cases ht
  rcases hs with ⟨_, _, rfl⟩ | ⟨hb, rfl, hs⟩
  · cases hok
  simp only at hs
  obtain ⟨_, _, ⟨hno, _⟩ | ⟨_, _, hw, ho⟩⟩ := hs
  · exact absurd hok hno
  have hseq : d.seq < 2 ^ 64 := hat.lt hb
  have hat1 := hat.bump hseq
  obtain ⟨hc', st, u1, _, u2, _⟩ := HalfConn.updateKey_spec L g d.next.suite (c.outC.bump) hat1.good
  simp only [Record.updateOutboundKey, u1, exec_bind_ok] at hu
  cases hu
  refine ⟨hseq, ?_, rfl, ?_⟩
  · rw [ho, hw]
    have hlen : (d.protect L (Spec.innerPlaintext (keyUpdateMessage k) Spec.handshakeType 0)).length = 27 :=
      dirProtect_length ..
    have : Spec.sealRecord L c.outC.aead.alg c.outC.aead.key
        (Spec.recordNonce c.outC.nonce c.outC.seq.toNat)
        (Spec.innerPlaintext (keyUpdateMessage k) Spec.handshakeType 0) =
        d.protect L (Spec.innerPlaintext (keyUpdateMessage k) Spec.handshakeType 0) := by
      rw [hat.nonce hseq, hat.key, hat.good.alg]; rfl
    simp only [Iovec.bytes]
    rw [this]
    exact List.take_left' hlen
  · show At L hc' _
    rw [u2 rfl]
    exact hat1.updated

theorem Chain.receive {L : Lib} {A : Allocator} (hA : AllocOk A) {d d' : Spec.Dir} {w m rest}
    (h : Chain L d ((w, m) :: rest) d') {f : Nat → Record.Fault} (hf : ∀ i, f i = .none) {s : State}
    {vs : List Iovec} (hv : Spec.NonEmptyBufs vs) (hb : flat vs = w) (hat : At L s.conn.inC d)
    (hr : Ready s.conn) :
    ∃ s' bufs d1, unprotect L A f s vs = .ok (s', ⟨.ok, bufs⟩) ∧ (bufs.map (·.2)).flatten = m ∧
      At L s'.conn.inC d1 ∧ Ready s'.conn ∧ Chain L d1 rest d' := by
  cases h with
  | message a h =>
    obtain ⟨s', bufs, e1, e2, e3, e4⟩ := unprotect_message (f := f) hA (fun i => by rw [hf i]; rfl) hv hb hat a hr
    exact ⟨s', bufs, _, e1, by rw [e2, fragments_flatten], e3, e4, h⟩
  | rekey k a h =>
    obtain ⟨s', bufs, e1, e2, e3, e4⟩ := unprotect_update (f := f) hA (fun i => by rw [hf i]; exact ⟨rfl, rfl⟩) hv hb
      hat a hr
    exact ⟨s', bufs, _, e1, by rw [e2]; rfl, e3, e4, h⟩

theorem set_same {α : Type} (f : Bool → α) (b : Bool) (x : α) : assign f b x b = x := by simp [assign]
theorem set_not {α : Type} (f : Bool → α) (b : Bool) (x : α) : assign f b x (!b) = f !b := by
  simp [assign]
theorem set_not' {α : Type} (f : Bool → α) (b : Bool) (x : α) : assign f (!b) x b = f b := by
  simp [assign]

theorem forall_side {P : Bool → Prop} (b : Bool) (h1 : P b) (h2 : P !b) : ∀ c, P c := by
  intro c; cases b <;> cases c <;> simp_all

theorem SessionOk.step {L : Lib} {A : Allocator} (hA : AllocOk A) {y z : Session}
    (h : SessionOk L y) (hs : SessionStep L A y z) : SessionOk L z := by
  cases hs with
  | send b hp hw =>
    rename_i f vs s' id w
    obtain ⟨a, ha⟩ := h.reach b
    obtain ⟨s1, res, e, _, hconn, hcase⟩ := protect_call (A := A) (f := f) (vs := vs) hA ha
    have hst := (protect_steps hp).calls
    rw [hp] at e
    cases e
    have hready : Ready s'.conn := by
      rw [hconn]
      exact ⟨(h.ready b).1, (h.ready b).2, (h.ready b).3, (h.ready b).4, (h.ready b).5, (h.ready b).6⟩
    refine ⟨forall_side b ?_ ?_, forall_side b ?_ ?_, forall_side b ?_ ?_⟩
    · obtain ⟨ops, evs, g1, g2⟩ := hst
      simp only [set_same]
      rw [g2]; exact ⟨a, ha.run g1⟩
    · simp only [set_not]; exact h.reach _
    · simp only [set_same]; exact hready
    · simp only [set_not]; exact h.ready _
    · simp only [set_same, set_not]
      obtain ⟨d, d', l1, l2, l3⟩ := h.link b
      rcases hcase with ⟨_, _, b', hb, hl, hall⟩ | ⟨hno, _⟩
      · obtain ⟨q1, q2, q3⟩ := hall d' l1
        cases hb
        rw [q3 hw]
        rw [hw.totalLen_eq] at q1 q2
        exact ⟨d, _, q1, l2, l3.append (.message q2 (.nil _))⟩
      · exact absurd rfl hno
    · simp only [set_not, Bool.not_not, set_same]
      have := h.link !b
      rw [Bool.not_not] at this
      obtain ⟨d, d', l1, l2, l3⟩ := this
      refine ⟨d, d', l1, ?_, l3⟩
      rw [hconn]; exact l2
  | rekey b hp hok hu =>
    rename_i f g k ob c r c'
    obtain ⟨a, ha⟩ := h.reach b
    obtain ⟨d, d', l1, l2, l3⟩ := h.link b
    obtain ⟨q1, q2, q3, q4⟩ := Record_protect_update l1 hp hok hu
    refine ⟨forall_side b ?_ ?_, forall_side b ?_ ?_, forall_side b ?_ ?_⟩
    · simp only [set_same]
      have := ha.run (L := L) (ops := [.protect f .handshake [.buf (keyUpdateMessage k)] (.buf ob),
        .updateOutboundKey g]) (c' := c') (evs' := [.sealed r, .outboundUpdated .ok])
        (by simp [Record.run, Record.step, hp, hu])
      exact ⟨a, this⟩
    · simp only [set_not]; exact h.reach _
    · simp only [set_same]
      rw [q3]
      exact ⟨(h.ready b).1, (h.ready b).2, (h.ready b).3, (h.ready b).4, (h.ready b).5, (h.ready b).6⟩
    · simp only [set_not]; exact h.ready _
    · simp only [set_same, set_not]
      rw [q2]
      exact ⟨d, _, q4, l2, l3.append (.rekey k q1 (.nil _))⟩
    · simp only [set_not, Bool.not_not, set_same]
      have := h.link !b
      rw [Bool.not_not] at this
      obtain ⟨e, e', m1, m2, m3⟩ := this
      refine ⟨e, e', m1, ?_, m3⟩
      show At L c'.inC e
      rw [q3]; exact m2
  | receive b hw hb hv hf hu =>
    rename_i f vs w m rest s' res
    have hlink := h.link !b
    rw [Bool.not_not, hw] at hlink
    obtain ⟨d, d', l1, l2, l3⟩ := hlink
    obtain ⟨s1, bufs, d1, e1, e2, e3, e4, e5⟩ := l3.receive hA hf hv hb l2 (h.ready b)
    have hout := unprotect_outC hu
    have hst := (unprotect_steps hu).calls
    rw [hu] at e1
    cases e1
    obtain ⟨a, ha⟩ := h.reach b
    refine ⟨forall_side b ?_ ?_, forall_side b ?_ ?_, forall_side b ?_ ?_⟩
    · obtain ⟨ops, evs, g1, g2⟩ := hst
      simp only [set_same]
      rw [g2]; exact ⟨a, ha.run g1⟩
    · simp only [set_not]; exact h.reach _
    · simp only [set_same]; exact e4
    · simp only [set_not]; exact h.ready _
    · simp only [set_same, set_not, set_not']
      obtain ⟨e, e', m1, m2, m3⟩ := h.link b
      exact ⟨e, e', by rw [hout]; exact m1, m2, m3⟩
    · simp only [set_same, set_not, Bool.not_not]
      exact ⟨d1, d', l1, e3, e5⟩

theorem Ready.created {L : Lib} {o s} (h : Created L o s) : Ready s.conn := by
  obtain ⟨_, _, _, ⟨fi, fo, h1⟩, _⟩ := created_inv h
  obtain ⟨_, _, _, _, _, _, h2⟩ := Record.create_inv h1
  rw [h2]
  exact ⟨rfl, rfl, Handler.Safe.init, rfl, rfl, rfl⟩

theorem SessionOk.start {L : Lib} {o p : Options} {s t : State} (hs : Created L o s)
    (ht : Created L p t) (hp : Spec.Paired o p) :
    SessionOk L ⟨fun b => if b then t else s, fun _ => []⟩ := by
  obtain ⟨_, _, _, cs, _, _, _, es⟩ := created_inv hs
  obtain ⟨_, _, _, ct, _, _, _, et⟩ := created_inv ht
  obtain ⟨su, hsu⟩ := Record.created_suite cs
  have hsu' : Spec.suite p.args.ciphersuite = some su := by
    have : o.args.ciphersuite = p.args.ciphersuite := hp.suite
    rw [← this]; exact hsu
  have a1 := cs.at hsu
  have a2 := ct.at hsu'
  refine ⟨forall_side true ?_ ?_, forall_side true ?_ ?_, forall_side true ?_ ?_⟩
  · exact ⟨p.args, t.conn, [], ct, by simp [et, Record.run]⟩
  · exact ⟨o.args, s.conn, [], cs, by simp [es, Record.run]⟩
  · exact Ready.created ht
  · exact Ready.created hs
  · refine ⟨_, _, a2.2, ?_, .nil _⟩
    have : Record.outDir p.args su = Record.inDir o.args su := by
      show (⟨su, p.crypter.outSecret, p.crypter.outSequence.toNat⟩ : Spec.Dir) = ⟨su, o.crypter.inSecret, o.crypter.inSequence.toNat⟩
      rw [hp.secret', hp.seq']
    rw [this]; exact a1.1
  · refine ⟨_, _, a1.2, ?_, .nil _⟩
    have : Record.outDir o.args su = Record.inDir p.args su := by
      show (⟨su, o.crypter.outSecret, o.crypter.outSequence.toNat⟩ : Spec.Dir) = ⟨su, p.crypter.inSecret, p.crypter.inSequence.toNat⟩
      rw [hp.secret, hp.seq]
    rw [this]; exact a2.1

theorem SessionOk.steps {L : Lib} {A : Allocator} (hA : AllocOk A) {y z : Session}
    (h : SessionOk L y) (hs : SessionSteps L A y z) : SessionOk L z := by
  induction hs with
  | refl => exact h
  | step _ h2 ih => exact ih.step hA h2

end S2A.Frame
