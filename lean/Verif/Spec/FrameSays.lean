import Verif.Spec.RecordSays
/-
The messages of failing calls of a frame protector, each with what it says.
-/
namespace S2A.Spec
open Record (Conn Code)

/-- The length that the header of a record gives for what follows it. -/
def headerLength (hd : Bytes) : Nat := (hd.getD 3 0).toNat * 256 + (hd.getD 4 0).toNat

/-- What a status and a message of `Unprotect` say of the call: the connection, the bytes from the
peer (`vs`), the size of the output buffer (`room`), what the first record decrypts to (`inner`) and
the status of the key update it caused (`rekey`).  A message of the connection is passed on. -/
inductive FrameUnprotectSays (L : Lib) (c : Conn) (f : EvpFault) (errs : String) (vs : List Iovec)
    (room : Nat) : (inner : Option Bytes) → (rekey : Option StatusCode) → StatusCode → String → Prop
  | tooShort : totalLen vs < 5 + 1 + 16 →
      FrameUnprotectSays L c f errs vs room none none .failedPrecondition
        "|protected_bytes| is too small to contain a TLS record."
  | header : (flat vs).take 3 ≠ [23, 3, 3] →
      FrameUnprotectSays L c f errs vs room none none .failedPrecondition
        "TLS record header is incorrectly formatted."
  | incomplete : totalLen vs < 5 + headerLength (flat vs) →
      FrameUnprotectSays L c f errs vs room none none .failedPrecondition
        "|vecs| is too small to hold TLS record."
  | record (header rest : Bytes) (payload : List Iovec) (inner : Option Bytes)
      (rekey : Option StatusCode) (code : Code) (m : String) :
      header.length = 5 → (flat payload).length = headerLength header →
      flat vs = header ++ flat payload ++ rest →
      UnprotectSays L c f errs (.buf header) payload room inner rekey code m →
      FrameUnprotectSays L c f errs vs room inner rekey (Frame.convertCode code) m

/-- `k` records in turn were opened with success, from connection to connection. -/
inductive Opened (L : Lib) : Nat → Conn → Conn → Prop
  | none (c : Conn) : Opened L 0 c c
  | more {f : Record.Fault} {errs : String} {c c1 c2 : Conn} {header : Iovec} {payload : List Iovec}
      {out : Iovec} {r : Record.Result} {said : S2A.Said} {k : Nat} :
      Record.unprotectT L f errs c header payload out = .ok ((c1, r), said) → r.code = .ok →
      Opened L k c1 c2 → Opened L (k + 1) c c2

/-- `k` records in turn were protected with success, from connection to connection. -/
inductive Sealed (L : Lib) : Nat → Conn → Conn → Prop
  | none (c : Conn) : Sealed L 0 c c
  | more {f : EvpFault} {errs : String} {c c1 c2 : Conn} {pt : List Iovec} {out : Iovec}
      {r : Record.Result} {said : S2A.Said} {k : Nat} :
      Record.protectT L f errs c .applicationData pt out = .ok ((c1, r), said) → r.code = .ok →
      Sealed L k c1 c2 → Sealed L (k + 1) c c2

/-- What a status and a message of `Unprotect` into new buffers say about the first record that is
refused: the connection before it (`c`), the bytes from it on (`rest`) and how many there are (`left`),
and the events of the connection (`evs`). -/
inductive NextRecordSays (L : Lib) (c : Conn) (f : EvpFault) (errs : String) (rest : Bytes)
    (left : Nat) (evs : List Record.Event) : StatusCode → String → Prop
  | header : rest.take 3 ≠ [23, 3, 3] →
      NextRecordSays L c f errs rest left evs .failedPrecondition
        "TLS record header is incorrectly formatted."
  | incomplete : left < 5 + headerLength rest →
      NextRecordSays L c f errs rest left evs .failedPrecondition
        "|vecs| is too small to hold TLS record."
  | record (header after : Bytes) (payload : List Iovec) (r : Record.Result) (m : String) :
      header.length = 5 → (flat payload).length = headerLength header →
      rest = header ++ flat payload ++ after → .opened r ∈ evs →
      UnprotectSays L c f errs (.buf header) payload (headerLength header) r.inner r.rekey r.code m →
      NextRecordSays L c f errs rest left evs (Frame.convertCode r.code)
        ("Failed to unprotect bytes from peer: " ++ m)

end S2A.Spec
