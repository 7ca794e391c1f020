import Verif.Spec.Record
import Verif.Model.Frame
/-
What the frame protector should do, on byte strings.
-/
namespace S2A.Spec

/-- Number of records for a message of `n` bytes: one for an empty message, otherwise as many
as fragments of at most 2^14 bytes. -/
def recordCount (n : Nat) : Nat := max 1 ((n + 16383) / 16384)

/-- The fragments of a message: 2^14 bytes each, but for the last one. -/
def fragments (b : Bytes) : List Bytes :=
  (List.range (recordCount b.length)).map fun i => (b.drop (16384 * i)).take 16384

/-- Application data records with the given contents at consecutive positions. -/
def dataRecords (L : Lib) : Dir → List Bytes → List Bytes
  | _, [] => []
  | d, x :: xs => d.protect L (innerPlaintext x appDataType 0) :: dataRecords L d.next xs

/-- The records carrying a message, from position `d` on. -/
def messageRecords (L : Lib) (d : Dir) (b : Bytes) : List Bytes := dataRecords L d (fragments b)

/-- Position `n` records later. -/
def Dir.skip (d : Dir) (n : Nat) : Dir := { d with seq := d.seq + n }

/-- A complete protected record, as header and payload: opaque type 23, legacy version
0x0303, and the length of the payload. -/
structure Whole (header payload : Bytes) : Prop where
  fits : payload.length < 65536
  header : header = recordHeader payload.length

/-- Cut the first record off a byte string: header, payload, and the bytes after it. -/
def firstRecord : Bytes → Option (Bytes × Bytes × Bytes)
  | b0 :: b1 :: b2 :: hi :: lo :: rest =>
    if b0 = 23 ∧ b1 = 3 ∧ b2 = 3 ∧ hi.toNat * 256 + lo.toNat ≤ rest.length then
      some ([b0, b1, b2, hi, lo], rest.take (hi.toNat * 256 + lo.toNat),
        rest.drop (hi.toNat * 256 + lo.toNat))
    else none
  | _ => none

/-- Buffers a caller may split bytes into: not null and not empty. -/
def NonEmptyBufs (vs : List Iovec) : Prop := ∀ v ∈ vs, ∃ d, v = .buf d ∧ d ≠ []

/-- An allocator that gives a (non-null) buffer of the size asked for. -/
def AllocOk (A : Frame.Allocator) : Prop := ∀ i n, ∃ d, A i n = .buf d ∧ d.length = n

/-- An allocator that gives a (non-null) buffer of at least the size asked for. -/
def Roomy (A : Frame.Allocator) : Prop := ∀ i n, ∃ d, A i n = .buf d ∧ n ≤ d.length

/-- Is the event a destruction of this buffer? -/
def destroys (id : Frame.BufId) : Frame.MemEvent → Bool
  | .destroy j _ => j == id
  | _ => false

/-- Is the event an allocation of this buffer? -/
def allocates (id : Frame.BufId) : Frame.MemEvent → Bool
  | .alloc j _ => j == id
  | _ => false

/-- Given the allocator and destroy calls of one API call and the buffers it handed to the
caller: every buffer it allocated was either handed out once or destroyed once, and it neither
destroyed nor handed out any other. -/
def OwnedOnce (mem : List Frame.MemEvent) (given : List Frame.BufId) : Prop :=
  ∀ id, given.count id + mem.countP (destroys id) = mem.countP (allocates id) ∧
    mem.countP (allocates id) ≤ 1

/-- The bytes are complete records, up to a tail that is too short for a record. -/
def Framed (b : Bytes) : Prop :=
  ∃ (recs : List (Bytes × Bytes)) (tail : Bytes),
    b = (recs.map fun r => r.1 ++ r.2).flatten ++ tail ∧ tail.length < 22 ∧
      ∀ r ∈ recs, Whole r.1 r.2

/-- The bytes are one or more complete records, each of at least the 22 bytes of the shortest
protected record (header, content type and tag). -/
structure Batch (recs : List (Bytes × Bytes)) (b : Bytes) : Prop where
  some : recs ≠ []
  bytes : b = (recs.map fun r => r.1 ++ r.2).flatten
  whole : ∀ r ∈ recs, Whole r.1 r.2
  long : ∀ r ∈ recs, 22 ≤ r.1.length + r.2.length

/-- Records received at consecutive positions of a direction, and what is delivered for each:
every one opens at its position; application data is delivered, and for handshake records
nothing; the keys change only after a handshake record. -/
inductive Accepted (L : Lib) : Dir → List (Bytes × Bytes) → List Bytes → Dir → Prop
  | nil (d : Dir) : Accepted L d [] [] d
  | data {d d' : Dir} {header payload inner content recs out} :
      d.open L header payload = some inner → unpad inner = some (content, appDataType) →
      Accepted L d.next recs out d' →
      Accepted L d ((header, payload) :: recs) (content :: out) d'
  | handshake {d d1 d' : Dir} {header payload inner content recs out} :
      d.open L header payload = some inner → unpad inner = some (content, handshakeType) →
      (d1 = d.next ∨ d1 = d.next.update L) → Accepted L d1 recs out d' →
      Accepted L d ((header, payload) :: recs) ([] :: out) d'

/-- Buffers that are not null, but may be empty. -/
def Bufs (vs : List Iovec) : Prop := ∀ v ∈ vs, ∃ d, v = .buf d

/-- The beginning of a record header, not all of it. -/
def HeaderBegun (b : Bytes) : Prop :=
  b.length < 5 ∧ b.take 3 <+: [23, 3, 3]

/-- An empty buffer where the header of a record is expected: the buffers before it contain the
records `recs` and then the beginning `part` of a header, which may be no byte at all, and at
least 22 bytes follow the records. -/
structure EmptyInHeader (vs : List Iovec) (recs : List (Bytes × Bytes)) : Prop where
  whole : ∀ r ∈ recs, Whole r.1 r.2 ∧ 22 ≤ r.1.length + r.2.length
  at_ : ∃ pre part post, vs = pre ++ .buf [] :: post ∧
    flat pre = (recs.map fun r => r.1 ++ r.2).flatten ++ part ∧ HeaderBegun part ∧
    22 ≤ part.length + (flat post).length

end S2A.Spec
