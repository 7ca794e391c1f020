import Verif.Lemmas.PeerSplit
import Verif.Props.Frame
/-
A conformant TLS 1.3 peer is understood.
-/
namespace S2A.Frame
open Spec (AllocOk NonEmptyBufs PeerRecords IsGiven ReceivesOk receivedPieces innerPlaintext
  appDataType handshakeType keyUpdateMessage hsMessage ticketType TicketMessage PeerSends EndsInUpdate OpensAt)
open Demo

set_option maxRecDepth 100000

/-! ## C76: every conformant peer is understood -/

/-- A frame protector is given the records of any peer that conforms to RFC 8446, sealed with the
keys it was created with, at consecutive positions: application data of any sizes, session tickets
in any fragmentation, key updates, all with any padding.  They are given in any number of calls, each
with any number of whole records in any non-empty pieces, and between the calls messages may be
protected.  Then every call succeeds, and exactly the application data is delivered, record by
record.  Missing: key updates that are split over records, see `C76_split_update_fails`. -/
theorem C76_conformant_peer_partial (L : Lib) (A : Allocator) (hA : AllocOk A) (o : Options)
    (su : Spec.Suite) (hsu : Spec.suite o.args.ciphersuite = some su) (s : State)
    (hs : Created L o s) (recs : List (Bytes × Bytes))
    (hp : PeerRecords L False (Record.inDir o.args su) [] recs) (ops : List Op)
    (hg : IsGiven ops recs) :
    ∃ s' evs, run L A s ops = .ok (s', evs) ∧ ReceivesOk ops evs ∧
      receivedPieces ops evs = recs.map (·.2) := by
  obtain ⟨_, _, _, hc, _⟩ := created_inv hs
  exact run_peer hA hg (o := o) ⟨s, [], [], hs, rfl⟩ hp (hc.at hsu).1 (Listening.created hs)

/-- A session ticket message. -/
def demoTicket : Bytes := hsMessage ticketType [9, 8, 7]

theorem demoTicket_ok : TicketMessage demoTicket := ⟨[9, 8, 7], rfl, by decide, by decide⟩

/-- A padded data record, a record with a ticket and the beginning of another, a record with the
rest of it and a key update, and a data record under the new keys. -/
def demoPeer : List (Bytes × Bytes) :=
  [(record 0 (innerPlaintext [1, 2] appDataType 3), [1, 2]),
   (record 1 (innerPlaintext (demoTicket ++ [4, 0]) handshakeType 0), []),
   (record 2 (innerPlaintext ([0, 3, 9, 8, 7] ++ keyUpdateMessage 0) handshakeType 1), []),
   (((Record.Demo.pos 3).update Lib.toy).protect Lib.toy (innerPlaintext [5] appDataType 0), [5])]

/-- Witness: the hypotheses hold of these records, given in two calls (the first of which is cut
inside a record header). -/
example : PeerRecords Lib.toy False (Record.inDir rightO.args Record.Demo.suite) [] demoPeer ∧
    IsGiven [.unprotect (fun _ => .none)
        [.buf (((demoPeer.take 3).map (·.1)).flatten.take 2),
         .buf (((demoPeer.take 3).map (·.1)).flatten.drop 2)],
      .protect (fun _ => .none) [.buf [3]],
      .unprotectInto .none
        [.buf (((Record.Demo.pos 3).update Lib.toy).protect Lib.toy (innerPlaintext [5] appDataType 0))]
        (.buf (List.replicate 18 0))] demoPeer := by
  constructor
  · refine .data [1, 2] 3 (by decide) (by decide) ?_
    refine .tickets (begun' := [4, 0]) [demoTicket] [0, 3, 9, 8, 7] (demoTicket ++ [4, 0]) 0 rfl
      (by intro m hm; rw [List.mem_singleton.1 hm]; exact demoTicket_ok) (by decide) demoTicket_ok
      (by decide) (by decide) (by decide) ?_
    refine .update [demoTicket] 0 ([0, 3, 9, 8, 7] ++ keyUpdateMessage 0) 1 rfl
      (by intro m hm; rw [List.mem_singleton.1 hm]; exact demoTicket_ok) (by decide) (by decide)
      (by decide) ?_
    exact .data [5] 0 (by decide) (by decide) (.nil _ _)
  · refine .unprotect _ (demoPeer.take 3) (by decide) ?_ (by simp [flat, Iovec.bytes]) ?_
    · intro v hv
      simp only [List.mem_cons, List.not_mem_nil, or_false] at hv
      rcases hv with rfl | rfl
      · exact ⟨_, rfl, by decide +kernel⟩
      · exact ⟨_, rfl, by decide +kernel⟩
    refine .protect _ _ (by intro v hv; rw [List.mem_singleton.1 hv]; trivial) ?_
    refine .unprotectInto _ _ _ ?_ (by simp [flat, Iovec.bytes]) (by decide +kernel) .nil
    intro v hv
    rw [List.mem_singleton.1 hv]
    exact ⟨_, rfl, by decide +kernel⟩

/-- The run of the witness. -/
example : ∃ s' evs, run Lib.toy alloc rightS [.unprotect (fun _ => .none)
        [.buf (((demoPeer.take 3).map (·.1)).flatten.take 2),
         .buf (((demoPeer.take 3).map (·.1)).flatten.drop 2)],
      .unprotect (fun _ => .none)
        [.buf (((Record.Demo.pos 3).update Lib.toy).protect Lib.toy (innerPlaintext [5] appDataType 0))]]
      = .ok (s', evs) ∧
    evs.map (fun e => match e with
      | .result r => (r.status, r.bytes.map (·.2))
      | .status st _ _ => (st, [])) = [(.ok, [[1, 2], [], []]), (.ok, [[5]])] :=
  ⟨_, _, rfl, by decide +kernel⟩

/-- A peer may also split a key update over two records.  It is not understood: the second of these
records is refused. -/
theorem C76_split_update_fails : ∃ (recs : List (Bytes × Bytes)) (ops : List Op) (s' : State)
    (evs : List Event),
    PeerRecords Lib.toy True (Record.inDir rightO.args Record.Demo.suite) [] recs ∧
    IsGiven ops recs ∧ run Lib.toy alloc rightS ops = .ok (s', evs) ∧ ¬ ReceivesOk ops evs := by
  refine ⟨[(record 0 (innerPlaintext [24, 0] handshakeType 0), []),
      (record 1 (innerPlaintext [0, 1, 0] handshakeType 0), [])],
    [.unprotect (fun _ => .none) [.buf (record 0 (innerPlaintext [24, 0] handshakeType 0))],
     .unprotect (fun _ => .none) [.buf (record 1 (innerPlaintext [0, 1, 0] handshakeType 0))]],
    _, _, ?_, ?_, rfl, ?_⟩
  · refine .partOfUpdate (begun' := [24, 0]) [] 0 [0, 1, 0] [24, 0] 0 trivial rfl (by simp) (by decide)
      (by decide) rfl (by decide) (by decide) (by decide) ?_
    exact .update [] 0 [0, 1, 0] 0 rfl (by simp) (by decide) (by decide) (by decide) (.nil _ _)
  · have hv : ∀ i b, NonEmptyBufs [.buf (record i b)] := by
      intro i b v hv
      rw [List.mem_singleton.1 hv]
      refine ⟨_, rfl, ?_⟩
      exact List.cons_ne_nil _ _
    exact .unprotect _ [_] (by simp) (hv _ _) (by simp [flat, Iovec.bytes])
      (.unprotect _ [_] (by simp) (hv _ _) (by simp [flat, Iovec.bytes]) .nil)
  · intro h
    have h2 := h.2.1
    revert h2
    decide +kernel

/-- A split key update is never understood.  A peer sends any records in which no key update is split,
then one that ends in the middle of a key update, and then any other record, which it seals with the
same keys, for the key update is not complete.  However the records are given to a frame protector,
one of the calls fails.  The exception, which a cryptographic library rules out but for a negligible
probability, is a record that opens with other keys than the ones it was sealed with. -/
theorem C76_split_update_never_understood (L : Lib) (A : Allocator) (hA : AllocOk A) (o : Options)
    (su : Spec.Suite) (hsu : Spec.suite o.args.ciphersuite = some su) (s : State)
    (hs : Created L o s) (before : List (Bytes × Bytes)) (d : Spec.Dir) (begun begun' : Bytes)
    (hp : PeerSends L (Record.inDir o.args su) [] before d begun) (first : Bytes)
    (hfirst : EndsInUpdate L d begun begun' first) (inner : Bytes)
    (hl : 1 ≤ inner.length ∧ inner.length ≤ 2 ^ 14 + 1)
    (hother : ¬ OpensAt L (d.next.update L) (d.next.protect L inner)) (x y : Bytes)
    (after : List (Bytes × Bytes)) (ops : List Op)
    (hg : IsGiven ops (before ++ (first, x) :: (d.next.protect L inner, y) :: after))
    (s' : State) (evs : List Event) (hrun : run L A s ops = .ok (s', evs)) :
    ¬ ReceivesOk ops evs := by
  obtain ⟨_, _, _, hc, _⟩ := created_inv hs
  exact run_doomed hA hg (o := o) ⟨s, [], [], hs, rfl⟩
    (.sends hp (.split hfirst hl.1 hl.2 hother)) (hc.at hsu).1 (Listening.created hs) hrun

/-- Witness: a data record, a record with a ticket and two bytes of a key update, and a record with
the rest of it. -/
example : ∃ d, PeerSends Lib.toy (Record.inDir rightO.args Record.Demo.suite) []
      [(record 0 (innerPlaintext [1, 2] appDataType 3), [1, 2])] d [] ∧
    EndsInUpdate Lib.toy d [] [24, 0]
      (record 1 (innerPlaintext (demoTicket ++ [24, 0]) handshakeType 0)) ∧
    d.next.protect Lib.toy (innerPlaintext [0, 1, 0] handshakeType 0) =
      record 2 (innerPlaintext [0, 1, 0] handshakeType 0) ∧
    ¬ OpensAt Lib.toy (d.next.update Lib.toy)
      (d.next.protect Lib.toy (innerPlaintext [0, 1, 0] handshakeType 0)) := by
  refine ⟨_, .data [1, 2] 3 (by decide) (by decide) (.nil _ _), ?_, rfl, ?_⟩
  · exact .mk [demoTicket] 0 [0, 1, 0] (demoTicket ++ [24, 0]) 0 rfl
      (by intro m hm; rw [List.mem_singleton.1 hm]; exact demoTicket_ok) (by decide) (by decide) rfl
      (by decide) (by decide) (by decide)
  · rintro ⟨inner, h⟩
    have := (congrArg Option.isSome h).trans (b := (some inner).isSome) Option.isSome_some
    revert this
    decide +kernel

/-- Its run: the record that completes the key update is refused. -/
example : ∃ s' evs, run Lib.toy alloc rightS [
      .unprotect (fun _ => .none) [.buf (record 0 (innerPlaintext [1, 2] appDataType 3) ++
        record 1 (innerPlaintext (demoTicket ++ [24, 0]) handshakeType 0))],
      .unprotect (fun _ => .none) [.buf (record 2 (innerPlaintext [0, 1, 0] handshakeType 0))]] =
      .ok (s', evs) ∧
    evs.map (fun e => match e with
      | .result r => (r.status, r.bytes.map (·.2))
      | .status st _ _ => (st, [])) = [(.ok, [[1, 2], []]), (.internal, [])] :=
  ⟨_, _, rfl, by decide +kernel⟩

end S2A.Frame
