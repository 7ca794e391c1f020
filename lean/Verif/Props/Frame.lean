import Verif.Lemmas.Session
import Verif.Props.Crypter
/-
Properties of the frame protector: C01 to C11, C55, C56 and its part of C58.

`Created L o s`: `S2AFrameProtector::Create` with the options `o` returned the protector `s`.
`Reach L A o s`: a protector created with `o` is in state `s` after some history of calls on
it, with any buffers and any failures of the crypto library (Lemmas/FrameReach.lean).
`AllocOk A`: the user's allocator returns buffers of the size asked for.
`AllWF vs`: a buffer is null only if its length is 0.
-/
namespace S2A.Frame
open HalfConn (At)
open Spec (AllocOk NonEmptyBufs Session SessionSteps Paired OwnedOnce)
open Record (inPos outPos)

set_option maxRecDepth 100000

/-- The suite of a protector that was created. -/
theorem Reach.suite {L : Lib} {A o s} (h : Reach L A o s) :
    ∃ su, Spec.suite o.args.ciphersuite = some su := by
  obtain ⟨s0, _, _, h1, _⟩ := h
  obtain ⟨_, _, _, h2, _⟩ := created_inv h1
  exact Record.created_suite h2

/-! ### Concrete protectors for the examples -/

namespace Demo

def alloc : Allocator := fun _ n => .buf (zeros n)

theorem alloc_ok : AllocOk alloc := fun _ n => ⟨zeros n, rfl, by simp⟩

def leftO : Options := ⟨Record.Demo.leftArgs, true, true⟩
def rightO : Options := ⟨Record.Demo.rightArgs, true, true⟩
def leftS : State := ⟨Record.Demo.left, 16406, 0, [], []⟩
def rightS : State := ⟨Record.Demo.right, 16406, 0, [], []⟩

theorem left_created : Created Lib.toy leftO leftS := ⟨.none, .none, rfl⟩
theorem right_created : Created Lib.toy rightO rightS := ⟨.none, .none, rfl⟩
theorem left_reach : Reach Lib.toy alloc leftO leftS := ⟨_, [], [], left_created, rfl⟩
theorem right_reach : Reach Lib.toy alloc rightO rightS := ⟨_, [], [], right_created, rfl⟩
theorem paired : Paired leftO rightO := ⟨rfl, rfl, rfl, rfl, rfl⟩

/-- The status of a call. -/
def status {α : Type} (x : Exec (State × Result)) (g : Result → α) : Option α :=
  match x with
  | .ok (_, r) => some (g r)
  | _ => none

/-- A record of `left` with the given inner plaintext. -/
def record (n : Nat) (inner : Bytes) : Bytes :=
  Record.Demo.recordAt (Record.Demo.pos n) inner

end Demo
open Demo

/-! ## C01: round trip -/

/-- Of two protectors created with matching keys and sequence numbers, one protects a message
(of any length, in any buffers).  If the call succeeds, then the other one, given the bytes in
any non-empty buffers, returns buffers whose concatenation is the message. -/
theorem C01_round_trip (L : Lib) (A : Allocator) (hA : AllocOk A) (o p : Options) (s t : State)
    (hs : Created L o s) (ht : Created L p t) (hp : Paired o p) (f : Nat → EvpFault)
    (vs : List Iovec) (hw : AllWF vs) (s' : State) (res : Result)
    (h : protect L A f s vs = .ok (s', res)) (hok : res.status = .ok) :
    ∃ id w, res.bytes = [(id, w)] ∧
      ∀ ws, NonEmptyBufs ws → flat ws = w → ∀ g : Nat → Record.Fault, (∀ i, g i = .none) →
        ∃ t' bufs, unprotect L A g t ws = .ok (t', ⟨.ok, bufs⟩) ∧
          (bufs.map (·.2)).flatten = flat vs := by
  have hstart := SessionOk.start hs ht hp
  obtain ⟨a, ha⟩ := hstart.reach false
  obtain ⟨s1, res1, e, _, _, hcase⟩ := protect_call (A := A) (f := f) (vs := vs) hA ha
  have e : protect L A f s vs = .ok (s1, res1) := e
  rw [h] at e
  cases e
  rcases hcase with ⟨_, _, b, hb, _⟩ | ⟨hno, _⟩
  case inr => exact absurd hok hno
  refine ⟨_, b, hb, ?_⟩
  obtain ⟨st, bs⟩ := res
  cases hok
  cases hb
  have hstep := hstart.step hA (.send false (y := ⟨fun b => if b then t else s, fun _ => []⟩) h hw)
  intro ws hws hfl g hg
  obtain ⟨d, d', _, l2, l3⟩ := hstep.link false
  obtain ⟨t', bufs, _, e1, e2, _⟩ := Chain.receive (L := L) (A := A) (vs := ws) hA l3 hg hws hfl l2
    (hstep.ready true)
  exact ⟨t', bufs, e1, e2⟩

/-- `Protect` succeeds when the library does not fail and the sequence numbers do not run
out, in every reachable state. -/
theorem C01_protect_succeeds (L : Lib) (A : Allocator) (hA : AllocOk A) (o : Options)
    (su : Spec.Suite) (hsu : Spec.suite o.args.ciphersuite = some su) (s : State)
    (hr : Reach L A o s) (hlive : s.conn.outC.alwaysFail = false) (f : Nat → EvpFault)
    (hf : ∀ i, f i = .none) (vs : List Iovec) (hw : AllWF vs)
    (hseq : (outPos L o.args su s.evs).seq + Spec.recordCount (flat vs).length ≤ 2 ^ 64) :
    ∃ s' id w, protect L A f s vs = .ok (s', ⟨.ok, [(id, w)]⟩) := by
  have hc := hr.conn.1
  obtain ⟨s1, ⟨st, bs⟩, e, _, _, hcase⟩ := protect_call (A := A) (f := f) (vs := vs) hA hc
  rcases hcase with ⟨h1, _, b, hb, _⟩ | ⟨_, _, _, h4⟩
  · cases h1; cases hb; exact ⟨_, _, _, e⟩
  · rcases hc.outAt hsu with h | h
    · rw [hlive] at h; cases h
    · have := h4 _ h hf hw
      rw [hw.totalLen_eq] at this
      omega

theorem wf1 (d : Bytes) : AllWF [.buf d] := by
  intro v hv; simp only [List.mem_singleton] at hv; subst hv; trivial

/-- Witness: a message of 3 bytes in two buffers, received one byte at a time. -/
example : ∃ w, status (protect Lib.toy alloc (fun _ => .none) leftS [.buf [1, 2], .null 0, .buf [3]])
      (fun r => (r.status, r.bytes.map (·.2))) = some (.ok, [w]) ∧
    NonEmptyBufs (w.map fun x => .buf [x]) ∧ flat (w.map fun x => .buf [x]) = w ∧
    status (unprotect Lib.toy alloc (fun _ => .none) rightS (w.map fun x => .buf [x]))
      (fun r => (r.status, (r.bytes.map (·.2)).flatten)) = some (.ok, [1, 2, 3]) := by
  refine ⟨record 0 [1, 2, 3, 23], by decide +kernel, ?_, by decide +kernel, by decide +kernel⟩
  intro v hv
  obtain ⟨x, _, rfl⟩ := List.mem_map.1 hv
  exact ⟨_, rfl, by simp⟩

example : ∃ s' id w, protect Lib.toy alloc (fun _ => .none) leftS [.buf [1, 2]] =
    .ok (s', ⟨.ok, [(id, w)]⟩) :=
  C01_protect_succeeds Lib.toy alloc alloc_ok leftO _ rfl leftS left_reach rfl _ (fun _ => rfl) _
    (wf1 _) (by decide)

/-! ## C02: sessions -/

/-- Two protectors created with matching keys exchange messages and key updates, in both
directions, in any interleaving, with any number of items in flight.  Whatever is received
next is exactly what was sent first, however it is cut into buffers. -/
theorem C02_in_order_delivery (L : Lib) (A : Allocator) (hA : AllocOk A) (o p : Options)
    (s t : State) (hs : Created L o s) (ht : Created L p t) (hp : Paired o p) (y : Session)
    (hy : SessionSteps L A ⟨fun b => if b then t else s, fun _ => []⟩ y) (b : Bool)
    (w m : Bytes) (rest : List (Bytes × Bytes)) (hw : y.wire (!b) = (w, m) :: rest)
    (ws : List Iovec) (hws : NonEmptyBufs ws) (hfl : flat ws = w) (g : Nat → Record.Fault)
    (hg : ∀ i, g i = .none) :
    ∃ t' bufs, unprotect L A g (y.ends b) ws = .ok (t', ⟨.ok, bufs⟩) ∧
      (bufs.map (·.2)).flatten = m := by
  have hok := (SessionOk.start hs ht hp).steps hA hy
  have hl := hok.link !b
  rw [Bool.not_not, hw] at hl
  obtain ⟨d, d', _, l2, l3⟩ := hl
  obtain ⟨t', bufs, _, e1, e2, _⟩ := l3.receive hA hg hws hfl l2 (hok.ready b)
  exact ⟨t', bufs, e1, e2⟩

/-- Both ends stay in step: when everything sent in a direction has been received, the
receiver's secret and sequence number are those of the sender. -/
theorem C02_in_step (L : Lib) (A : Allocator) (hA : AllocOk A) (o p : Options)
    (s t : State) (hs : Created L o s) (ht : Created L p t) (hp : Paired o p) (y : Session)
    (hy : SessionSteps L A ⟨fun b => if b then t else s, fun _ => []⟩ y) (b : Bool)
    (hw : y.wire b = []) :
    (y.ends b).conn.outC.secret = (y.ends !b).conn.inC.secret ∧
      (y.ends b).conn.outC.seq = (y.ends !b).conn.inC.seq ∧
      (y.ends b).conn.outC.aead = (y.ends !b).conn.inC.aead ∧
      (y.ends b).conn.outC.nonce = (y.ends !b).conn.inC.nonce := by
  have hok := (SessionOk.start hs ht hp).steps hA hy
  obtain ⟨d, d', l1, l2, l3⟩ := hok.link b
  rw [hw] at l3
  cases l3
  exact l1.same l2

/-- Witness: a session with a message, a key update and another message in flight. -/
example : ∃ y m, SessionSteps Lib.toy alloc ⟨fun b => if b then rightS else leftS, fun _ => []⟩ y ∧
    (y.wire false).map (·.2) = [[1, 2], [], [3]] ∧ m ∈ y.wire false := by
  have h1 : ∃ s1 id w, protect Lib.toy alloc (fun _ => .none) leftS [.buf [1, 2]] =
      .ok (s1, ⟨.ok, [(id, w)]⟩) ∧ ∃ c r c',
      Record.protect Lib.toy .none s1.conn .handshake [.buf (Spec.keyUpdateMessage 0)]
        (.buf (zeros 27)) = .ok (c, r) ∧ r.code = .ok ∧
      Record.updateOutboundKey Lib.toy .none c = .ok (c', .ok) ∧ ∃ s2 id w2,
      protect Lib.toy alloc (fun _ => .none) { s1 with conn := c', evs := s1.evs ++ [.sealed r, .outboundUpdated .ok] } [.buf [3]] =
      .ok (s2, ⟨.ok, [(id, w2)]⟩) :=
    ⟨_, _, _, rfl, _, _, _, rfl, by decide +kernel, rfl, _, _, _, rfl⟩
  obtain ⟨s1, id, w, a1, c, r, c', a2, a3, a4, s2, id2, w2, a5⟩ := h1
  exact ⟨_, (w, [1, 2]),
    .step (.step (.step (.refl _) (.send false a1 (wf1 _))) (.rekey false a2 a3 a4))
      (.send false a5 (wf1 _)), rfl, by simp [Spec.assign, flat, Iovec.bytes]⟩

/-! ## C03: exact sizes -/

/-- `NumberBytesToProtect(n)` is `n` plus 22 bytes for each of max(1, ⌈n/16384⌉) records, and
this is the size of what a successful `Protect` of `n` bytes returns. -/
theorem C03_protected_size (L : Lib) (A : Allocator) (hA : AllocOk A) (o : Options) (s : State)
    (hr : Reach L A o s) (n : Nat) :
    numberBytesToProtect s n = n + 22 * max 1 ((n + 16383) / 16384) ∧
    ∀ f vs s' res, totalLen vs = n → protect L A f s vs = .ok (s', res) → res.status = .ok →
      ∃ id w, res.bytes = [(id, w)] ∧ w.length = numberBytesToProtect s n := by
  refine ⟨numberBytesToProtect_eq s n, ?_⟩
  rintro f vs s' res rfl h hok
  obtain ⟨s1, res1, e, _, _, hcase⟩ := protect_call (A := A) (f := f) (vs := vs) hA hr.conn.1
  rw [h] at e
  cases e
  rcases hcase with ⟨_, _, b, hb, hl, _⟩ | ⟨hno, _⟩
  · exact ⟨_, b, hb, hl⟩
  · exact absurd hok hno

/-- The non-allocating `Protect` writes exactly these bytes at the start of the caller's
buffer, and fails if the buffer is smaller. -/
theorem C03_protected_size_in_place (L : Lib) (A : Allocator) (o : Options) (s : State)
    (hr : Reach L A o s) (f : Nat → EvpFault) (vs : List Iovec) (ob : Bytes) :
    ∃ s' st ob', protectInto L f s .caller vs (.buf ob) = .ok (s', st, .buf ob') ∧
      ob'.length = ob.length ∧
      (st = .ok → numberBytesToProtect s (totalLen vs) ≤ ob.length ∧
        (AllWF vs → ob'.drop (numberBytesToProtect s (totalLen vs)) =
          ob.drop (numberBytesToProtect s (totalLen vs)))) := by
  obtain ⟨s', st, ob', h1, h2, _, _, _, h3, _⟩ :=
    protectInto_call (f := f) (vs := vs) (id := .caller) (ob := ob) hr.conn.1
  refine ⟨s', st, ob', h1, h2, fun hok => ?_⟩
  obtain ⟨h4, h5⟩ := h3 hok
  rw [numberBytesToProtect_eq]
  refine ⟨h4, fun hw => ?_⟩
  obtain ⟨su, hsu⟩ := hr.suite
  rcases hr.conn.1.outAt hsu with h | h
  · exfalso
    have := protectInto_alive hr.conn.1 h1 hok
    rw [this] at h; cases h
  · rw [(h5 _ h).2.2 hw]
    have hl := messageRecords_length L (outPos L o.args su s.evs) (flat vs)
    rw [hw.totalLen_eq, List.drop_left' hl]

/-- With 64-bit arithmetic the size is the same, unless it does not fit in 64 bits. -/
theorem C03_protected_size_64 (s : State) (n : UInt64)
    (h : numberBytesToProtect s n.toNat < 2 ^ 64) :
    (numberBytesToProtect64 s n).toNat = numberBytesToProtect s n.toNat := by
  have h22 : s.conn.recordOverhead = 22 := Record.recordOverhead_eq _
  have hn := n.toNat_lt
  have hd : (n / 16384).toNat = n.toNat / 16384 := by rw [UInt64.toNat_div]; rfl
  have hm : (n / 16384 * 16384).toNat = n.toNat / 16384 * 16384 := by
    rw [UInt64.toNat_mul, hd]
    have h16 : (16384 : UInt64).toNat = 16384 := rfl
    rw [h16]
    have := Nat.div_mul_le_self n.toNat 16384
    exact Nat.mod_eq_of_lt (by omega)
  have hz : n = 0 ↔ n.toNat = 0 := by
    rw [← UInt64.toNat_inj]; rfl
  have hc : (n = 0 ∨ n / 16384 * 16384 ≠ n) ↔
      (n.toNat = 0 ∨ n.toNat / 16384 * 16384 ≠ n.toNat) := by
    rw [hz, Ne, Ne, ← UInt64.toNat_inj, hm]
  unfold numberBytesToProtect numberBytesToProtect64 at *
  simp only [h22, kMaxPlaintext] at *
  have h22' : (UInt64.ofNat 22).toNat = 22 := rfl
  have h1' : (1 : UInt64).toNat = 1 := rfl
  by_cases hx : n.toNat = 0 ∨ n.toNat / 16384 * 16384 ≠ n.toNat
  · rw [if_pos hx] at h ⊢
    rw [if_pos (hc.2 hx), UInt64.toNat_add, UInt64.toNat_mul, UInt64.toNat_add, hd]
    rw [h22', h1']
    omega
  · rw [if_neg hx] at h ⊢
    rw [if_neg (fun y => hx (hc.1 y)), UInt64.toNat_add, UInt64.toNat_mul, hd]
    rw [h22']
    omega

example : (numberBytesToProtect leftS 16384, numberBytesToProtect leftS 16385,
    numberBytesToProtect leftS 0, numberBytesToProtect64 leftS 40000) =
    (16406, 16429, 22, 40066) := by decide

/-! ## C04: well-formed records -/

/-- What `Protect` returns is a concatenation of complete records (header 17 03 03 and the
length of the payload that follows).  Each is at most `MaxRecordSize()` = 16406 bytes with a
payload of at most 2^14 + 256 bytes.  Opened one after the other from the sender's position
on, they are application data, carry the message, and all but the last carry exactly 16384
bytes. -/
theorem C04_records (L : Lib) (A : Allocator) (hA : AllocOk A) (o : Options) (su : Spec.Suite)
    (hsu : Spec.suite o.args.ciphersuite = some su) (s : State) (hr : Reach L A o s)
    (f : Nat → EvpFault) (vs : List Iovec) (hw : AllWF vs) (s' : State) (res : Result)
    (h : protect L A f s vs = .ok (s', res)) (hok : res.status = .ok) :
    ∃ id recs parts, res.bytes = [(id, (recs.map fun r => r.1 ++ r.2).flatten)] ∧
      (∀ r ∈ recs, Spec.Whole r.1 r.2 ∧ (r.1 ++ r.2).length ≤ s.maxSize ∧
        r.2.length ≤ 2 ^ 14 + 256) ∧ s.maxSize = 16406 ∧
      Spec.Accepted L (outPos L o.args su s.evs) recs parts (outPos L o.args su s'.evs) ∧
      parts.flatten = flat vs ∧ (∀ x ∈ parts.dropLast, x.length = 16384) ∧
      recs.map (·.2.length) = parts.map (·.length + 17) := by
  obtain ⟨s1, res1, e, _, _, hcase⟩ := protect_call (A := A) (f := f) (vs := vs) hA hr.conn.1
  have hsteps := protect_steps h
  have hsize := hr.conn.2
  have hc' : Record.Reach L o.args s'.conn s'.evs := by
    obtain ⟨ops, evs, g1, g2⟩ := hsteps.calls
    rw [g2]; exact hr.conn.1.run g1
  have halive := protect_alive hA hr.conn.1 h hok
  rw [h] at e
  cases e
  rcases hcase with ⟨_, _, b, hb, hl, hall⟩ | ⟨hno, _⟩
  case inr => exact absurd hok hno
  have hat : At L s.conn.outC (outPos L o.args su s.evs) := by
    rcases hr.conn.1.outAt hsu with h | h
    · rw [halive] at h; cases h
    · exact h
  obtain ⟨q1, q2, q3⟩ := hall _ hat
  have hat' : At L s'.conn.outC (outPos L o.args su s'.evs) := by
    rcases hc'.outAt hsu with h | h
    · rw [q1.live] at h; cases h
    · exact h
  obtain ⟨recs, p1, p2, p3, p4⟩ := dataRecords_parts L (outPos L o.args su s.evs)
    (Spec.fragments (flat vs)) (fragments_le _)
  have hpos := q1.pos_unique hat' (by
    show (outPos L o.args su s.evs).suite = _
    unfold outPos; rw [HalfConn.after_suite, HalfConn.after_suite])
  rw [fragments_length, ← hw.totalLen_eq, hpos] at p4
  refine ⟨.heap s.next, recs, Spec.fragments (flat vs), ?_, ?_, hsize, p4, fragments_flatten _,
    fragments_init _, p3⟩
  · rw [hb, q3 hw, Spec.messageRecords, p1]
  · intro r hr'
    have hm : r.2.length ∈ recs.map (·.2.length) := List.mem_map.2 ⟨r, hr', rfl⟩
    rw [p3] at hm
    obtain ⟨x, hx1, hx2⟩ := List.mem_map.1 hm
    have := fragments_le _ x hx1
    have hh : r.1.length = 5 := by rw [(p2 r hr').header]; rfl
    refine ⟨p2 r hr', ?_, by omega⟩
    rw [List.length_append, hh, State.maxSize, hsize]
    omega

/-- Witness: a message of two buffers is one record of 27 bytes at the position of `left`. -/
example : ∃ s' res, protect Lib.toy alloc (fun _ => .none) leftS [.buf [1, 2], .buf [3, 4, 5]] =
    .ok (s', res) ∧ res.status = .ok ∧
    res.bytes = [(.heap 0, (Record.Demo.pos 0).protect Lib.toy [1, 2, 3, 4, 5, 23])] ∧
    (res.bytes.map (·.2.length)) = [27] :=
  ⟨_, _, rfl, by decide +kernel, by decide +kernel, by decide +kernel⟩

/-! ## C05, C06: buffer splits -/

/-- `Protect` depends only on the concatenation of the plaintext buffers. -/
theorem C05_protect_ignores_split (L : Lib) (A : Allocator) (hA : AllocOk A) (o : Options)
    (s : State) (hr : Reach L A o s) (f : Nat → EvpFault) (hf : ∀ i, f i = .none)
    (vs ws : List Iovec) (hv : AllWF vs) (hw : AllWF ws) (h : flat vs = flat ws) :
    protect L A f s vs = protect L A f s ws ∧
      ∀ id ob, protectInto L f s id vs (.buf ob) = protectInto L f s id ws (.buf ob) := by
  obtain ⟨su, hsu⟩ := hr.suite
  have hl : totalLen vs = totalLen ws := by rw [hv.totalLen_eq, hw.totalLen_eq, h]
  have key : ∀ s' : State, s'.conn = s.conn → ∀ id ob,
      protectInto L f s' id vs (.buf ob) = protectInto L f s' id ws (.buf ob) := by
    intro s' hs' id ob
    unfold protectInto
    simp only [← hl]
    exact protectLoop_flat hf id _ 0 s' vs ws 0 0 _ _ 0 ob
      (by rw [hs']; exact (hr.conn.1.good hsu).2.nonce) (curLe_start _) (curLe_start _) rfl hl hv hw
      (by simp [ahead, h]) (Nat.zero_le _)
  refine ⟨?_, key s rfl⟩
  unfold protect
  obtain ⟨ob, e, _⟩ := hA s.next (numberBytesToProtect s (totalLen ws))
  simp only [hl, State.alloc, e]
  rw [key { s with next := s.next + 1, mem := s.mem ++ [.alloc (.heap s.next) (numberBytesToProtect s (totalLen ws))] } rfl]

/-- `Unprotect` depends only on the concatenation of the (non-empty) buffers. -/
theorem C06_unprotect_ignores_split (L : Lib) (A : Allocator) (hA : AllocOk A) (o : Options)
    (s : State) (hr : Reach L A o s) (f : Nat → Record.Fault) (hf : ∀ i, (f i).evp = .none)
    (vs ws : List Iovec) (hv : NonEmptyBufs vs) (hw : NonEmptyBufs ws) (h : flat vs = flat ws) :
    unprotect L A f s vs = unprotect L A f s ws := by
  have hl : totalLen vs = totalLen ws := by rw [hv.wf.totalLen_eq, hw.wf.totalLen_eq, h]
  unfold unprotect
  simp only [← hl]
  split
  · rfl
  · exact unprotectLoop_flat hA hf _ 0 s vs ws 0 0 _ [] hr.conn.1 (cursor_start hv)
      (cursor_start hw) (by simp [ahead, h]) (by simp [ahead, hv.wf.totalLen_eq])

/-- The same for the non-allocating `Unprotect`, with an output buffer of at least
`NumberBytesToUnprotect` bytes. -/
theorem C06_unprotect_in_place_ignores_split (L : Lib) (A : Allocator) (o : Options)
    (s : State) (hr : Reach L A o s) (f : Record.Fault) (hf : f.evp = .none)
    (vs ws : List Iovec) (hv : NonEmptyBufs vs) (hw : NonEmptyBufs ws) (h : flat vs = flat ws)
    (ob : Bytes) (hob : numberBytesToUnprotect s (flat vs).length ≤ ob.length) :
    unprotectInto L f s vs (.buf ob) = unprotectInto L f s ws (.buf ob) := by
  rw [unprotectInto_flat hr.conn.1 hv hf hob, unprotectInto_flat hr.conn.1 hw hf (h ▸ hob), h]

/-- Witness: the hypotheses hold for a record in one piece and cut inside its header. -/
example : NonEmptyBufs [.buf (record 0 [1, 2, 23])] ∧
    NonEmptyBufs [.buf ((record 0 [1, 2, 23]).take 3), .buf ((record 0 [1, 2, 23]).drop 3)] ∧
    flat [.buf (record 0 [1, 2, 23])] =
      flat [.buf ((record 0 [1, 2, 23]).take 3), .buf ((record 0 [1, 2, 23]).drop 3)] ∧
    numberBytesToUnprotect rightS (flat [.buf (record 0 [1, 2, 23])]).length = 19 := by
  refine ⟨?_, ?_, by decide +kernel, by decide +kernel⟩
  · intro v hv
    simp only [List.mem_singleton] at hv
    exact ⟨_, hv, by decide +kernel⟩
  · intro v hv
    simp only [List.mem_cons, List.not_mem_nil, or_false] at hv
    rcases hv with rfl | rfl
    · exact ⟨_, rfl, by decide +kernel⟩
    · exact ⟨_, rfl, by decide +kernel⟩

/-! ## C07: no reads outside the buffers -/

/-- For non-empty buffers with any contents, in every reachable state and with any library
failures: both forms of `Unprotect` return, or run into the one undefined shift of the
handshake message reader (see `S2A.Record.C29_empty_body_undefined`); there is no access outside a buffer,
through a null pointer or to uninitialised memory, no size that wraps and no failing assertion.

Missing from the full property: buffers of length 0, for which it is false, see
`C07_counterexample`. -/
theorem C07_unprotect_stays_inside_partial (L : Lib) (A : Allocator) (hA : AllocOk A)
    (o : Options) (s : State) (hr : Reach L A o s) (vs : List Iovec) (hv : NonEmptyBufs vs) :
    (∀ f e, unprotect L A f s vs = .error e → e = .negativeShift) ∧
    (∀ f out e, out.WF → unprotectInto L f s vs out = .error e → e = .negativeShift) := by
  obtain ⟨su, hsu⟩ := hr.suite
  constructor
  · intro f e h
    rcases unprotect_call (A := A) (f := f) hA hsu hr.conn.1 hv with h1 | ⟨s', res, new, h1, _⟩
    · rw [h] at h1; cases h1; rfl
    · rw [h] at h1; cases h1
  · intro f out e ho h
    rcases unprotectInto_call (f := f) hsu hr.conn.1 hv ho with ⟨_, n, h1⟩ | ⟨_, _, _, _, _, _, _, _, h1 | ⟨c, r, _, _, h1⟩⟩
    · rw [h] at h1; cases h1
    · rw [h] at h1; cases h1; rfl
    · rw [h] at h1; cases h1

/-- A buffer of length 0 where a record header is expected is read out of bounds, before any
byte of it could be: here it comes after a complete record. -/
theorem C07_counterexample :
    ∃ (L : Lib) (A : Allocator) (o : Options) (s : State) (vs : List Iovec), AllocOk A ∧
      Reach L A o s ∧ AllWF vs ∧
      unprotect L A (fun _ => .none) s vs = .error .outOfBounds :=
  ⟨Lib.toy, alloc, rightO, rightS,
    [.buf (record 0 [1, 2, 23]), .buf [], .buf (record 1 [3, 4, 23])], alloc_ok, right_reach,
    by intro v hv; simp at hv; rcases hv with rfl | rfl | rfl <;> trivial, rfl⟩

/-! ## C08: partial records -/

/-- The allocating `Unprotect` returns OK only for complete records, followed by at most 21
bytes.

Missing from the full property: a partial record of at most 21 bytes at the end is accepted
and dropped, see `C08_counterexample`. -/
theorem C08_partial_records_rejected_partial (L : Lib) (A : Allocator) (hA : AllocOk A)
    (o : Options) (s : State) (hr : Reach L A o s) (vs : List Iovec) (hv : NonEmptyBufs vs)
    (f : Nat → Record.Fault) (s' : State) (res : Result)
    (h : unprotect L A f s vs = .ok (s', res))
    (hbad : (flat vs).length < 22 ∨ ¬ Spec.Framed (flat vs)) :
    res.status ≠ .ok ∧ res.bytes = [] := by
  obtain ⟨su, hsu⟩ := hr.suite
  rcases unprotect_call (A := A) (f := f) hA hsu hr.conn.1 hv with
    h1 | ⟨s1, res1, new, h1, _, _, _, hcase⟩
  · rw [h] at h1; cases h1
  rw [h] at h1
  cases h1
  rcases hcase with ⟨_, h22, _, recs, tail, out, h3, h4, h5, _⟩ | ⟨h2, h3, _⟩ | ⟨h2, h3, _⟩
  · rcases hbad with hbad | hbad
    · omega
    · exact absurd ⟨recs, tail, h3, h4, h5⟩ hbad
  · exact ⟨h2, h3⟩
  · exact ⟨by rw [h2]; simp, h3⟩

/-- A complete record followed by the first 21 bytes of the next one: `Unprotect` returns OK
(and the bytes are lost). -/
theorem C08_counterexample :
    ∃ (L : Lib) (A : Allocator) (o : Options) (s : State) (b c : Bytes), AllocOk A ∧
      Reach L A o s ∧ c.length = 27 ∧
      status (unprotect L A (fun _ => .none) s [.buf (b ++ c)])
        (fun r => (r.status, r.bytes.map (·.2))) = some (.ok, [[1, 2], [3, 4, 5, 6, 7]]) ∧
      status (unprotect L A (fun _ => .none) s [.buf (b ++ c.take 21)])
        (fun r => (r.status, r.bytes.map (·.2))) = some (.ok, [[1, 2]]) :=
  ⟨Lib.toy, alloc, rightO, rightS, record 0 [1, 2, 23], record 1 [3, 4, 5, 6, 7, 23], alloc_ok,
    right_reach, by decide +kernel, by decide +kernel, by decide +kernel⟩

/-- Witness for the partial theorem: a truncated record is rejected. -/
example : status (unprotect Lib.toy alloc (fun _ => .none) rightS
    [.buf (record 0 [1, 2, 23] ++ (record 1 [3, 4, 5, 6, 7, 23]).take 22)])
    (fun r => (r.status, r.bytes)) = some (.failedPrecondition, []) := by decide +kernel

/-! ## C09: one record -/

/-- The non-allocating `Unprotect` fails, without any change of state, if its input does not
begin with a complete record.

Missing from the full property: bytes after the first record are ignored, even if they are
further records, see `C09_counterexample`. -/
theorem C09_single_record_partial (L : Lib) (A : Allocator) (o : Options) (s : State)
    (hr : Reach L A o s) (vs : List Iovec) (hv : NonEmptyBufs vs) (f : Record.Fault) (out : Iovec)
    (ho : out.WF)
    (hbad : ¬ ∃ hd payload rest, flat vs = hd ++ payload ++ rest ∧ Spec.Whole hd payload) :
    ∃ n, unprotectInto L f s vs out = .ok (s, .failedPrecondition, n, out) := by
  obtain ⟨su, hsu⟩ := hr.suite
  rcases unprotectInto_call (f := f) hsu hr.conn.1 hv ho with ⟨_, h⟩ | ⟨hd, pl, rest, _, _, hfr, _⟩
  · exact h
  · obtain ⟨h1, h2⟩ := firstRecord_some hfr
    exact absurd ⟨hd, pl, rest, h1, h2⟩ hbad

/-- Two records: OK, with the contents of the first one; the second one is lost. -/
theorem C09_counterexample :
    ∃ (L : Lib) (A : Allocator) (o : Options) (s s' : State) (b c : Bytes) (out : Iovec),
      Reach L A o s ∧ Spec.Framed b ∧ Spec.Framed c ∧ 22 ≤ b.length ∧ 22 ≤ c.length ∧
      unprotectInto L .none s [.buf (b ++ c)] (.buf (zeros 50)) = .ok (s', .ok, 2, out) ∧
      out.bytes.take 2 = [1, 2] := by
  refine ⟨Lib.toy, alloc, rightO, rightS, _, record 0 [1, 2, 23], record 1 [3, 4, 5, 23], _,
    right_reach, ⟨[((record 0 [1, 2, 23]).take 5, (record 0 [1, 2, 23]).drop 5)], [], ?_, by decide,
      ?_⟩, ⟨[((record 1 [3, 4, 5, 23]).take 5, (record 1 [3, 4, 5, 23]).drop 5)], [], ?_, by decide,
      ?_⟩, by decide +kernel, by decide +kernel, rfl, by decide +kernel⟩
  · decide +kernel
  · intro r hr
    simp only [List.mem_singleton] at hr
    subst hr
    exact ⟨by decide +kernel, by decide +kernel⟩
  · decide +kernel
  · intro r hr
    simp only [List.mem_singleton] at hr
    subst hr
    exact ⟨by decide +kernel, by decide +kernel⟩

/-! ## C10: ownership of the buffer of `Protect` -/

/-- A successful `Protect` hands the one buffer it allocated to the caller and destroys
nothing.

Missing from the full property: on failure the buffer is destroyed twice, see
`C10_failure_destroys_twice` and `C10_counterexample`. -/
theorem C10_protect_ownership_partial (L : Lib) (A : Allocator) (hA : AllocOk A) (o : Options)
    (s : State) (hr : Reach L A o s) (f : Nat → EvpFault) (vs : List Iovec) :
    ∃ s' res new, protect L A f s vs = .ok (s', res) ∧ s'.mem = s.mem ++ new ∧
      (res.status = .ok → OwnedOnce new (res.bytes.map (·.1))) := by
  obtain ⟨s1, res1, e, _, _, hcase⟩ := protect_call (A := A) (f := f) (vs := vs) hA hr.conn.1
  rcases hcase with ⟨_, hm, b, hb, _⟩ | ⟨hno, _, hm, _⟩
  · refine ⟨s1, res1, _, e, hm, fun _ id => ?_⟩
    rw [hb]
    by_cases h : BufId.heap s.next = id
    · subst h; simp [Spec.allocates, Spec.destroys]
    · simp [Spec.allocates, Spec.destroys, h]
  · exact ⟨s1, res1, _, e, hm, fun h => absurd h hno⟩

/-- Whenever `Protect` fails, it destroys the buffer it allocated twice. -/
theorem C10_failure_destroys_twice (L : Lib) (A : Allocator) (hA : AllocOk A) (o : Options)
    (s : State) (hr : Reach L A o s) (f : Nat → EvpFault) (vs : List Iovec) (s' : State)
    (res : Result) (h : protect L A f s vs = .ok (s', res)) (hno : res.status ≠ .ok) :
    ∃ id n, s'.mem = s.mem ++ [.alloc id n, .destroy id n, .destroy id n] := by
  obtain ⟨s1, res1, e, _, _, hcase⟩ := protect_call (A := A) (f := f) (vs := vs) hA hr.conn.1
  rw [h] at e
  cases e
  rcases hcase with ⟨hok, _⟩ | ⟨_, _, hm, _⟩
  · exact absurd hok hno
  · exact ⟨_, _, hm⟩

/-- The non-allocating `Protect` destroys the caller's buffer when it fails, which a caller
that owns it will do again. -/
theorem C10_failure_destroys_callers_buffer (L : Lib) (A : Allocator) (o : Options) (s : State)
    (hr : Reach L A o s) (f : Nat → EvpFault) (vs : List Iovec) (ob : Bytes) :
    ∃ s' st ob', protectInto L f s .caller vs (.buf ob) = .ok (s', st, .buf ob') ∧
      s'.mem = if st = .ok then s.mem else s.mem ++ [.destroy .caller ob.length] := by
  obtain ⟨s', st, ob', h1, _, _, _, h2, _⟩ :=
    protectInto_call (f := f) (vs := vs) (id := .caller) (ob := ob) hr.conn.1
  exact ⟨s', st, ob', h1, h2⟩

/-- A reachable failure: one failed library call during `Protect` of 2 bytes. -/
theorem C10_counterexample :
    ∃ (L : Lib) (A : Allocator) (o : Options) (s s' : State) (f : Nat → EvpFault)
      (vs : List Iovec) (res : Result), AllocOk A ∧ Reach L A o s ∧ AllWF vs ∧
      protect L A f s vs = .ok (s', res) ∧ res.status = .internal ∧
      s'.mem = [.alloc (.heap 0) 24, .destroy (.heap 0) 24, .destroy (.heap 0) 24] ∧
      ¬ OwnedOnce s'.mem (res.bytes.map (·.1)) := by
  refine ⟨Lib.toy, alloc, leftO, leftS, _, fun _ => { EvpFault.none with final := true }, [.buf [1, 2]], _, alloc_ok,
    left_reach, wf1 _, rfl, by decide +kernel, by decide +kernel, ?_⟩
  intro h
  have := h (.heap 0)
  revert this
  decide +kernel

/-! ## C11: ownership of the buffers of `Unprotect` -/

/-- For every input: no buffer is destroyed or handed out more often than allocated, and on
success and for every failure of decryption each buffer is handed out or destroyed exactly
once.

Missing from the full property: when a malformed or truncated record (at least 22 bytes to
go) follows good ones, the buffers of the good ones are lost, see `C11_counterexample`. -/
theorem C11_unprotect_ownership_partial (L : Lib) (A : Allocator) (hA : AllocOk A) (o : Options)
    (s : State) (hr : Reach L A o s) (vs : List Iovec) (hv : NonEmptyBufs vs)
    (f : Nat → Record.Fault) (s' : State) (res : Result)
    (h : unprotect L A f s vs = .ok (s', res)) :
    ∃ new, s'.mem = s.mem ++ new ∧
      (∀ id, (res.bytes.map (·.1)).count id + new.countP (Spec.destroys id) ≤
        new.countP (Spec.allocates id) ∧ new.countP (Spec.allocates id) ≤ 1) ∧
      (res.status ≠ .failedPrecondition ∨ Spec.Framed (flat vs) →
        OwnedOnce new (res.bytes.map (·.1))) := by
  obtain ⟨su, hsu⟩ := hr.suite
  rcases unprotect_call (A := A) (f := f) hA hsu hr.conn.1 hv with
    h1 | ⟨s1, res1, new, h1, _, hm, hal, hcase⟩
  · rw [h] at h1; cases h1
  rw [h] at h1
  cases h1
  refine ⟨new, hm, ?_, ?_⟩
  · intro id
    refine ⟨?_, (hal id).1⟩
    rcases hcase with ⟨_, _, h3, _⟩ | ⟨_, h3, h4⟩ | ⟨_, h3, h4, _⟩
    · have := h3 id; omega
    · rw [h3, h4 id]; simp
    · rw [h3, h4 id]; simp
  · intro hgood id
    refine ⟨?_, (hal id).1⟩
    rcases hcase with ⟨_, _, h3, _⟩ | ⟨_, h3, h4⟩ | ⟨h2, h3, h4, h5⟩
    · have := h3 id; omega
    · rw [h3, h4 id]; simp
    · rcases hgood with hg | hg
      · exact absurd h2 hg
      · exact absurd hg h5

/-- A good record followed by 22 bytes that are no record: the buffer with the decrypted
plaintext of the first is neither returned nor destroyed. -/
theorem C11_counterexample :
    ∃ (L : Lib) (A : Allocator) (o : Options) (s s' : State) (b : Bytes) (res : Result),
      AllocOk A ∧ Reach L A o s ∧
      unprotect L A (fun _ => .none) s [.buf (b ++ List.replicate 22 0)] = .ok (s', res) ∧
      res = ⟨.failedPrecondition, []⟩ ∧ s'.mem = [.alloc (.heap 0) 19] ∧
      ¬ OwnedOnce s'.mem (res.bytes.map (·.1)) := by
  refine ⟨Lib.toy, alloc, rightO, rightS, _, record 0 [1, 2, 23], _, alloc_ok, right_reach, rfl,
    by decide +kernel, by decide +kernel, ?_⟩
  intro h
  have := h (.heap 0)
  revert this
  decide +kernel

/-- Witness for the partial theorem: two good records and a forged one; three allocations,
three destructions. -/
example : (match unprotect Lib.toy alloc (fun _ => .none) rightS
      [.buf (record 0 [1, 2, 23] ++ record 1 [3, 23] ++ record 5 [4, 23])] with
    | .ok (s', res) => some (res.status, res.bytes, s'.mem)
    | _ => none) = some (.internal, [],
      [.alloc (.heap 0) 19, .alloc (.heap 1) 18, .alloc (.heap 2) 18, .destroy (.heap 2) 18,
       .destroy (.heap 0) 2, .destroy (.heap 1) 1]) := by decide +kernel

/-! ## C55: OK means authentic -/

/-- The allocating `Unprotect` returns OK only if its input is records which, one after the
other from the receiver's position on, are authentic and carry application data or handshake
messages; it returns the application data in order and an empty buffer for each handshake
record.  (`Accepted`, Spec/Frame.lean.) -/
theorem C55_ok_means_authentic (L : Lib) (A : Allocator) (hA : AllocOk A) (o : Options)
    (su : Spec.Suite) (hsu : Spec.suite o.args.ciphersuite = some su) (s : State)
    (hr : Reach L A o s) (vs : List Iovec) (hv : NonEmptyBufs vs) (f : Nat → Record.Fault)
    (s' : State) (res : Result) (h : unprotect L A f s vs = .ok (s', res)) :
    (res.status = .ok ∧ ∃ recs tail,
      flat vs = (recs.map fun r => r.1 ++ r.2).flatten ++ tail ∧ tail.length < 22 ∧
      recs ≠ [] ∧ (∀ r ∈ recs, Spec.Whole r.1 r.2) ∧
      Spec.Accepted L (inPos L o.args su s.evs) recs (res.bytes.map (·.2))
        (inPos L o.args su s'.evs)) ∨
    (res.status ≠ .ok ∧ res.bytes = []) := by
  rcases unprotect_call (A := A) (f := f) hA hsu hr.conn.1 hv with
    h1 | ⟨s1, res1, new, h1, _, _, _, hcase⟩
  · rw [h] at h1; cases h1
  rw [h] at h1
  cases h1
  rcases hcase with ⟨h0, h22, _, recs, tail, out, h3, h4, h5, h6, h7⟩ | ⟨h2, h3, _⟩ | ⟨h2, h3, _⟩
  · refine Or.inl ⟨h0, recs, tail, h3, h4, ?_, h5, by rw [h6]; exact h7⟩
    rintro rfl
    simp only [List.map_nil, List.flatten_nil, List.nil_append] at h3
    rw [h3] at h22
    omega
  · exact Or.inr ⟨h2, h3⟩
  · exact Or.inr ⟨by rw [h2]; simp, h3⟩

/-- The same for the non-allocating `Unprotect` and the first record. -/
theorem C55_ok_means_authentic_in_place (L : Lib) (A : Allocator) (o : Options) (su : Spec.Suite)
    (hsu : Spec.suite o.args.ciphersuite = some su) (s : State) (hr : Reach L A o s)
    (vs : List Iovec) (hv : NonEmptyBufs vs) (f : Record.Fault) (out : Iovec) (ho : out.WF)
    (s' : State) (st : StatusCode) (n : Nat) (out' : Iovec)
    (h : unprotectInto L f s vs out = .ok (s', st, n, out')) (hok : st = .ok) :
    ∃ hd payload rest, flat vs = hd ++ payload ++ rest ∧ Spec.Whole hd payload ∧
      Spec.Accepted L (inPos L o.args su s.evs) [(hd, payload)] [out'.bytes.take n]
        (inPos L o.args su s'.evs) := by
  rcases unprotectInto_call (f := f) hsu hr.conn.1 hv ho with
    ⟨_, m, h1⟩ | ⟨hd, pl, rest, ps, _, hfr, h2, h3, h1 | ⟨c, r, hu, hl, h1⟩⟩
  · rw [h] at h1; cases h1; cases hok
  · rw [h] at h1; cases h1
  · rw [h] at h1
    cases h1
    have hcode : r.code = .ok := convertCode_ok.1 hok
    obtain ⟨g1, g2⟩ := firstRecord_some hfr
    refine ⟨hd, pl, rest, g1, g2, ?_⟩
    rw [if_pos hcode]
    obtain ⟨inner, content, q1, q2 | q2⟩ := Record.unprotect_accept hsu hr.conn.1 h3 ho hu hcode
    · rw [h2] at q1
      rw [q2.2.1]
      refine .data q1 q2.1 ?_
      rw [q2.2.2]
      exact .nil _
    · rw [h2] at q1
      rw [q2.2.1]
      exact .handshake q1 q2.1 q2.2.2 (.nil _)

/-- Witnesses: an alert and a replayed record are errors. -/
example : status (unprotect Lib.toy alloc (fun _ => .none) rightS
      [.buf (record 0 [1, 2, 23] ++ record 1 [1, 0, 21])])
      (fun r => (r.status, r.bytes)) = some (.internal, []) ∧
    status (unprotect Lib.toy alloc (fun _ => .none) rightS
      [.buf (record 0 [1, 2, 23] ++ record 0 [1, 2, 23])])
      (fun r => (r.status, r.bytes)) = some (.internal, []) := by
  constructor <;> decide +kernel

/-! ## C56: sizes of unprotected bytes -/

/-- Into a buffer of `NumberBytesToUnprotect` bytes the non-allocating `Unprotect` does the
same as into any other buffer of at least this size: same status and same plaintext. -/
theorem C56_unprotected_size_is_enough (L : Lib) (A : Allocator) (o : Options) (s : State)
    (hr : Reach L A o s) (f : Record.Fault) (hf : f.evp = .none) (vs : List Iovec)
    (hv : NonEmptyBufs vs) (ob ob' : Bytes)
    (hob : ob.length = numberBytesToUnprotect s (flat vs).length) (hob' : ob.length ≤ ob'.length)
    (s' : State) (st : StatusCode) (n : Nat) (out : Iovec)
    (h : unprotectInto L f s vs (.buf ob') = .ok (s', st, n, out)) (hn : st = .ok) :
    ∃ s'' out', unprotectInto L f s vs (.buf ob) = .ok (s'', .ok, n, out') ∧
      s''.conn = s'.conn ∧ out'.bytes.take n = out.bytes.take n ∧ n ≤ ob.length := by
  subst hn
  exact unprotectInto_room hr.conn.1 hv hf hob hob' h

/-- Witness: a record of 24 bytes into a buffer of exactly 19 bytes and into a larger one. -/
example : (∃ s' out, unprotectInto Lib.toy .none rightS [.buf (record 0 [1, 2, 23])]
      (.buf (zeros 30)) = .ok (s', .ok, 2, out)) ∧
    ∃ s' out, unprotectInto Lib.toy .none rightS [.buf (record 0 [1, 2, 23])]
      (.buf (zeros 19)) = .ok (s', .ok, 2, out) ∧ out.bytes.take 2 = [1, 2] :=
  ⟨⟨_, _, rfl⟩, _, _, rfl, by decide +kernel⟩

/-- Whatever the allocating `Unprotect` returns fits the buffers it allocated. -/
theorem C56_unprotect_fits (L : Lib) (A : Allocator) (hA : AllocOk A) (o : Options) (s : State)
    (hr : Reach L A o s) (f : Nat → Record.Fault) (vs : List Iovec) (hv : NonEmptyBufs vs)
    (s' : State) (res : Result) (h : unprotect L A f s vs = .ok (s', res)) :
    ∀ x ∈ res.bytes, ∃ n, .alloc x.1 n ∈ s'.mem ∧ x.2.length ≤ n := by
  obtain ⟨su, hsu⟩ := hr.suite
  unfold unprotect at h
  simp only at h
  split at h
  · cases h; simp
  · exact unprotectLoop_fits hA hsu (cursor_start hv) hr.conn.1 (by simp) h

/-! ## C58: creation of a protector -/

/-- A protector is created only with all callbacks, a non-empty address, TLS 1.3, a known
ciphersuite and traffic secrets of that suite's size; and with these it is created if the
library does not fail. -/
theorem C58_protector_creation (L : Lib) (fIn fOut : KeyFault) (o : Options) :
    ∃ res, create L fIn fOut o = .ok res ∧
      (∀ s, res = .ok s → o.hasAllocator = true ∧ o.hasDestroy = true ∧
        o.crypter.hasLogger = true ∧ o.crypter.url ≠ [] ∧ o.crypter.tlsVersion = .tls1_3 ∧
        ∃ su, Spec.suite o.crypter.ciphersuite = some su ∧
          o.crypter.inSecret.length = su.hash.digestSize ∧
          o.crypter.outSecret.length = su.hash.digestSize) ∧
      (∀ e, res = .error e → e ≠ .ok) ∧
      (∀ su, fIn = .none → fOut = .none → o.hasAllocator = true → o.hasDestroy = true →
        o.crypter.hasLogger = true → o.crypter.url ≠ [] → o.crypter.tlsVersion = .tls1_3 →
        Spec.suite o.crypter.ciphersuite = some su →
        o.crypter.inSecret.length = su.hash.digestSize →
        o.crypter.outSecret.length = su.hash.digestSize → ∃ s, res = .ok s) := by
  obtain ⟨res, h1, h2, h3, h4⟩ :=
    Record.C58_connection_creation L fIn fOut { o.crypter with hasSender := true }
  unfold create
  by_cases hc : (!o.hasAllocator || !o.hasDestroy || !o.crypter.hasLogger) = true
  · rw [if_pos hc]
    refine ⟨_, rfl, by simp, by simp, ?_⟩
    intro su _ _ a1 a2 a3
    simp [a1, a2, a3] at hc
  rw [if_neg hc, h1, exec_bind_ok]
  simp only [Bool.not_eq_true, Bool.or_eq_false_iff, Bool.not_eq_false'] at hc
  cases res with
  | error e =>
    refine ⟨_, rfl, by simp, ?_, ?_⟩
    · rintro e' ⟨⟩; exact h3 e rfl
    · intro su b1 b2 _ _ b3 b4 b5 b6 b7 b8
      obtain ⟨c, hx⟩ := h4 su b1 b2 b4 b3 rfl b5 b6 b7 b8
      cases hx
  | ok c =>
    refine ⟨_, rfl, ?_, by simp, fun _ _ _ _ _ _ _ _ _ _ _ => ⟨_, rfl⟩⟩
    intro _ _
    obtain ⟨c1, c2, _, c4, c5⟩ := h2 c rfl
    exact ⟨hc.1.1, hc.1.2, c2, c1, c4, c5⟩

example : (∃ s, create Lib.toy .none .none leftO = .ok (.ok s)) ∧
    create Lib.toy .none .none { leftO with hasDestroy := false } = .ok (.error .invalidArgument) :=
  ⟨⟨_, rfl⟩, rfl⟩

end S2A.Frame
