import Verif.Lemmas.Held
import Verif.Lemmas.Closed
import Verif.Props.Crypter
import Verif.Props.Frame
/-
C69: the memory a peer can make a connection keep.  C70: what a caller can tell about the end of
the stream.  C71: the key a frame protector sends with.  C74: how much is sent with one key.
-/
namespace S2A.Record
open Spec (heldBytes heldPieces maxMessage)
open Demo

set_option maxRecDepth 100000

/-! ## C69: bounded memory -/

/-- Whatever the peer sends and whatever is called, with any library failures: a connection keeps
at most the bytes of six handshake messages of the largest size (and three more), in no more
pieces than bytes. -/
theorem C69_bounded_memory (L : Lib) (a : CreateArgs) (c : Conn) (evs : List Event)
    (hr : Reach L a c evs) :
    heldBytes c ≤ 6 * maxMessage + 3 ∧ (heldPieces c).length ≤ heldBytes c := by
  obtain ⟨c0, ops, h1, h2⟩ := hr
  exact Bound.held (run_bound (by rw [created_handler h1]; exact Handler.Bound.init) h2)

/-- A ticket is stored and another one is incomplete: eleven bytes in five pieces. -/
example : ∃ c evs, Reach Lib.toy rightArgs c evs ∧ heldBytes c = 11 ∧ (heldPieces c).length = 5 :=
  ⟨_, _, ⟨right, recvAll (pos 0) [[4, 0, 0, 1, 7, 4, 0, 22], [0, 9, 22], [8, 9, 22, 0]],
    right_created, rfl⟩, by decide +kernel, by decide +kernel⟩

/-- The number is about 96 MiB. -/
example : 6 * maxMessage + 3 = 96 * 2 ^ 20 + 21 := by decide

end S2A.Record

namespace S2A.Frame
open Spec (heldBytes heldPieces maxMessage AllocOk)
open Demo

set_option maxRecDepth 100000

/-- The same for frame protectors. -/
theorem C69_frame_bounded_memory (L : Lib) (A : Allocator) (o : Options) (s : State)
    (hr : Reach L A o s) :
    heldBytes s.conn ≤ 6 * maxMessage + 3 ∧ (heldPieces s.conn).length ≤ heldBytes s.conn :=
  Record.C69_bounded_memory L _ _ _ hr.conn.1

example : ∃ s, Reach Lib.toy alloc rightO s ∧ heldBytes s.conn = 6 :=
  ⟨_, ⟨rightS, [.unprotect (fun _ => .none) [.buf (record 0 [4, 0, 0, 9, 1, 2, 22])]], _,
    right_created, rfl⟩, by decide +kernel⟩

/-! ## C70: the end of the stream -/

/-- Once a close-notify alert was received, no `Unprotect` call returns OK or any data.

Partial: C70 asks that the caller can tell the end of the stream from a broken record, but both
have the same status, see `C70_counterexample`. -/
theorem C70_after_close_no_data_partial (L : Lib) (A : Allocator) (o : Options) (s s' : State)
    (f : Nat → Record.Fault) (vs : List Iovec) (r : Record.Result) (res : Result)
    (hr : Reach L A o s) (hm : .opened r ∈ s.evs) (hc : r.code = .alertCloseNotify)
    (h : unprotect L A f s vs = .ok (s', res)) :
    res.bytes = [] ∧ (res.status = .failedPrecondition ∨ res.status = .internal) :=
  unprotect_after_close (hr.conn.1.closed hm hc) h

/-- The same for the non-allocating `Unprotect`: the caller's buffer is not written. -/
theorem C70_after_close_no_data_in_place_partial (L : Lib) (A : Allocator) (o : Options)
    (s s' : State) (f : Record.Fault) (vs : List Iovec) (out out' : Iovec) (n : Nat)
    (st : StatusCode) (r : Record.Result)
    (hr : Reach L A o s) (hm : .opened r ∈ s.evs) (hc : r.code = .alertCloseNotify)
    (h : unprotectInto L f s vs out = .ok (s', st, n, out')) :
    out' = out ∧ (st = .failedPrecondition ∨ st = .internal) :=
  unprotectInto_after_close (hr.conn.1.closed hm hc) h

/-- A record with a close-notify alert, a record with another alert and a record with a wrong
tag, each given to the same fresh protector: the results are the same. -/
theorem C70_counterexample :
    let tell := fun bytes => status (unprotect Lib.toy alloc (fun _ => .none) rightS [.buf bytes]) id
    tell (record 0 [1, 0, 21]) = some ⟨.internal, []⟩ ∧
      tell (record 0 [2, 40, 21]) = some ⟨.internal, []⟩ ∧
      tell (record 1 [1, 0, 21]) = some ⟨.internal, []⟩ := by
  decide +kernel

/-- The close-notify is received and reported as such by the connection inside. -/
example : ∃ s r, Reach Lib.toy alloc rightO s ∧ .opened r ∈ s.evs ∧ r.code = .alertCloseNotify :=
  ⟨_, _, ⟨rightS, [.unprotect (fun _ => .none) [.buf (record 0 [1, 0, 21])]], _,
    right_created, rfl⟩, List.mem_singleton.2 rfl, by decide +kernel⟩

/-! ## C71: the sending key -/

/-- Over its whole life a frame protector encrypts with one key, that of the traffic secret it
was created with, whatever key updates the peer sends or asks for. -/
theorem C71_one_sending_key (L : Lib) (A : Allocator) (o : Options) (su : Spec.Suite) (s : State)
    (hs : Spec.suite o.crypter.ciphersuite = some su) (hr : Reach L A o s) :
    ∀ key nonce, .aead key nonce ∈ Record.outTrace s.evs →
      key = Spec.trafficKey L su.hash o.crypter.outSecret su.keyLen := by
  have hrc := hr.conn.1
  have hf := (Record.C16_C17_connection_follows_rfc8446 L o.args su _ _ hs hrc).1
  obtain ⟨_, _, _, h2⟩ := hrc
  exact Record.follows_one_key (Record.outTrace_quiet (Record.run_sealed h2) hr.quiet) hf

/-- The peer asks for a key update (the last byte of its message is `update_requested`); the call
that receives the request succeeds; the next record sent is application data and is encrypted
with the old key. -/
theorem C71_counterexample : ∃ s1 s2 res,
    unprotect Lib.toy alloc (fun _ => .none) rightS [.buf (record 0 [24, 0, 0, 1, 1, 22])] =
      .ok (s1, ⟨.ok, [(.heap 0, [])]⟩) ∧
    protect Lib.toy alloc (fun _ => .none) s1 [.buf [1, 2]] = .ok (s2, res) ∧
    res = ⟨.ok, [(.heap 1, (Spec.Dir.mk Record.Demo.suite rightO.crypter.outSecret 5).protect
      Lib.toy [1, 2, 23])]⟩ :=
  ⟨_, _, _, rfl, rfl, by decide +kernel⟩

/-- Two records are encrypted, one before and one after a key update of the peer. -/
example : ∃ s, Reach Lib.toy alloc rightO s ∧ (Record.outTrace s.evs).length = 2 :=
  ⟨_, ⟨rightS, [.protect (fun _ => .none) [.buf [1]],
    .unprotect (fun _ => .none) [.buf (record 0 [24, 0, 0, 1, 1, 22])],
    .protect (fun _ => .none) [.buf [2]]], _, right_created, rfl⟩, by decide +kernel⟩

/-! ## C74: how much is sent with one key -/

/-- The number of records after which RFC 8446 section 5.5 wants the key of an AES-GCM suite
replaced, rounded up. -/
def gcmRecordLimit : Nat := 23726567

/-- One sending key protects at most 2^64 records (in fact as many as are left from the sequence
number given at creation), by C14, C15 and C71.

Partial: C74 asks for the limit of RFC 8446 section 5.5, which nothing enforces, see
`C74_counterexample`. -/
theorem C74_key_usage_partial (L : Lib) (A : Allocator) (o : Options) (s : State)
    (hr : Reach L A o s) :
    o.crypter.outSequence.toNat + (Record.outTrace s.evs).length ≤ 2 ^ 64 := by
  obtain ⟨su, hs⟩ := hr.suite
  have hrc := hr.conn.1
  have hf := (Record.C16_C17_connection_follows_rfc8446 L o.args su _ _ hs hrc).1
  obtain ⟨_, _, _, h2⟩ := hrc
  exact Record.follows_length (Record.outTrace_quiet (Record.run_sealed h2) hr.quiet)
    (Nat.le_of_lt (UInt64.toNat_lt _)) hf

/-- A protector of an AES-GCM connection that has already sent more records than the limit under
its key sends one more. -/
theorem C74_counterexample :
    let o : Options := ⟨{ Record.Demo.leftArgs with outSequence := 23726567 }, true, true⟩
    ∃ s s' res, Created Lib.toy o s ∧ gcmRecordLimit ≤ o.crypter.outSequence.toNat ∧
      protect Lib.toy alloc (fun _ => .none) s [.buf [1]] = .ok (s', res) ∧ res.status = .ok :=
  ⟨_, _, _, ⟨.none, .none, rfl⟩, by decide, rfl, by decide +kernel⟩

end S2A.Frame
