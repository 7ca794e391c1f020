import Verif.Model.Base
/-
The protobuf wire format, as written and read by the upb library that the generated code in
src/proto/upb-generated uses.  upb itself is not part of /repo; this file models what it
reads and writes (https://protobuf.dev/programming-guides/encoding).
-/
namespace S2A.Wire

/-- The value of a field on the wire. [upb library, called by
src/proto/upb-generated/proto/s2a.upb.h:40, 52] -/
inductive Val
  | varint (n : Nat)
  | fixed64 (b : Bytes)
  | len (b : Bytes)
  | fixed32 (b : Bytes)
  deriving DecidableEq, Repr

/-- Field number and value. [upb library, called by src/proto/upb-generated/proto/s2a.upb.h:40,
52] -/
abbrev Field := Nat × Val

/-- A base-128 varint, least significant group first. [upb library, called by
src/proto/upb-generated/proto/s2a.upb.h:40, 52] -/
def varint (n : Nat) : Bytes :=
  if n < 128 then [UInt8.ofNat n] else UInt8.ofNat (n % 128 + 128) :: varint (n / 128)
termination_by n

/-- The wire type of a value (upb library, called by src/proto/upb-generated/proto/s2a.upb.h:40,
52). -/
def Val.wireType : Val → Nat
  | .varint _ => 0
  | .fixed64 _ => 1
  | .len _ => 2
  | .fixed32 _ => 5

/-- One field: the tag, then the value. [upb library, called by
src/proto/upb-generated/proto/s2a.upb.h:40, 52] -/
def encodeField : Field → Bytes
  | (i, v) => varint (8 * i + v.wireType) ++
    match v with
    | .varint n => varint n
    | .fixed64 b => b
    | .len b => varint b.length ++ b
    | .fixed32 b => b

/-- A message is the concatenation of its fields.  (upb writes them in the order of the field
tables, i.e. by field number.) [upb library, called by src/proto/upb-generated/proto/s2a.upb.h:40,
52] -/
def encode (fs : List Field) : Bytes := fs.flatMap encodeField

/-- Read a varint of at most `k` bytes. [upb library, called by
src/proto/upb-generated/proto/s2a.upb.h:40, 52] -/
def readVarint : (k : Nat) → Bytes → Option (Nat × Bytes)
  | 0, _ => none
  | _ + 1, [] => none
  | k + 1, b :: bs =>
    if b < 128 then some (b.toNat, bs)
    else match readVarint k bs with
      | none => none
      | some (n, r) => some (b.toNat - 128 + 128 * n, r)

/-- Split off the first `n` bytes. [upb library, called by
src/proto/upb-generated/proto/s2a.upb.h:40, 52] -/
def readBytes (n : Nat) (bs : Bytes) : Option (Bytes × Bytes) :=
  if n ≤ bs.length then some (bs.take n, bs.drop n) else none

/-- Read one field.  Varints have at most ten bytes and are cut to 64 bits.  Field number 0 and
the group wire types are refused (upb skips groups with an unknown number, see Model/Groups.lean
and C118; no message here has groups). [upb library, called by src/proto/upb-generated/proto/s2a.upb.h:40, 52] -/
def readField (bs : Bytes) : Option (Field × Bytes) := do
  let (tag, bs) ← readVarint 10 bs
  if tag / 8 = 0 then none
  else match tag % 8 with
    | 0 => do
      let (n, bs) ← readVarint 10 bs
      some ((tag / 8, .varint (n % 2 ^ 64)), bs)
    | 1 => do
      let (b, bs) ← readBytes 8 bs
      some ((tag / 8, .fixed64 b), bs)
    | 2 => do
      let (n, bs) ← readVarint 10 bs
      let (b, bs) ← readBytes n bs
      some ((tag / 8, .len b), bs)
    | 5 => do
      let (b, bs) ← readBytes 4 bs
      some ((tag / 8, .fixed32 b), bs)
    | _ => none

/-- Read the fields of a message.  Every field has at least one byte, so `fuel` (the number of
bytes) is never used up. [upb library, called by src/proto/upb-generated/proto/s2a.upb.h:40, 52]
-/
def readFields : (fuel : Nat) → Bytes → Option (List Field)
  | _, [] => some []
  | 0, _ :: _ => none
  | fuel + 1, bs =>
    match readField bs with
    | none => none
    | some (f, bs) => (readFields fuel bs).map (f :: ·)

/-- The fields of a message in wire format, in order, or nothing if the bytes are malformed. [upb
library, called by src/proto/upb-generated/proto/s2a.upb.h:40, 52] -/
def decode (bs : Bytes) : Option (List Field) := readFields bs.length bs

/-! ### Looking fields up

The decoder keeps the last value of a singular field, all values of a repeated one, and ignores
a known number with another wire type (it goes to the unknown fields). -/

/-- The number, if it is a varint (upb library, called by
src/proto/upb-generated/proto/s2a.upb.h:40, 52). -/
def Val.asVarint : Val → Option Nat
  | .varint n => some n
  | _ => none

/-- The bytes, if it is length-delimited (upb library, called by
src/proto/upb-generated/proto/s2a.upb.h:40, 52). -/
def Val.asLen : Val → Option Bytes
  | .len b => some b
  | _ => none

/-- All varints with field number `i`. [upb library, called by
src/proto/upb-generated/proto/s2a.upb.h:40, 52] -/
def varints (i : Nat) (fs : List Field) : List Nat :=
  fs.filterMap fun f => if f.1 = i then f.2.asVarint else none

/-- All length-delimited values with field number `i`. [upb library, called by
src/proto/upb-generated/proto/s2a.upb.h:40, 52] -/
def lens (i : Nat) (fs : List Field) : List Bytes :=
  fs.filterMap fun f => if f.1 = i then f.2.asLen else none

/-- A singular `uint64` (zero if absent). [upb library, called by
src/proto/upb-generated/proto/s2a.upb.h:40, 52] -/
def getU64 (i : Nat) (fs : List Field) : Nat := (varints i fs).getLast?.getD 0

/-- A singular `uint32` or enum: the varint is cut to 32 bits. [upb library, called by
src/proto/upb-generated/proto/s2a.upb.h:40, 52] -/
def getU32 (i : Nat) (fs : List Field) : Nat := getU64 i fs % 2 ^ 32

/-- A singular `bool`. [upb library, called by src/proto/upb-generated/proto/s2a.upb.h:40, 52] -/
def getBool (i : Nat) (fs : List Field) : Bool := decide (getU64 i fs ≠ 0)

/-- A singular `bytes`. [upb library, called by src/proto/upb-generated/proto/s2a.upb.h:40, 52] -/
def getBytes (i : Nat) (fs : List Field) : Bytes := (lens i fs).getLast?.getD []

/-- Decode a sequence of varints (the payload of a packed field). [upb library, called by
src/proto/upb-generated/proto/s2a.upb.h:40, 52] -/
def unpack : (fuel : Nat) → Bytes → Option (List Nat)
  | _, [] => some []
  | 0, _ :: _ => none
  | fuel + 1, bs =>
    match readVarint 10 bs with
    | none => none
    | some (n, bs) => (unpack fuel bs).map (n % 2 ^ 64 :: ·)

/-- The elements a field contributes to a repeated scalar with number `i`: packed or not. [upb
library, called by src/proto/upb-generated/proto/s2a.upb.h:40, 52] -/
def elems (i : Nat) : Field → Option (List Nat)
  | (j, v) =>
    if j = i then
      match v with
      | .varint n => some [n]
      | .len b => unpack b.length b
      | _ => some []
    else some []

/-- A repeated enum. [upb library, called by src/proto/upb-generated/proto/s2a.upb.h:40, 52] -/
def getRepeated (i : Nat) (fs : List Field) : Option (List Nat) := do
  let ls ← fs.mapM (elems i)
  return ls.flatten.map (· % 2 ^ 32)

/-- All strings with field number `i` pass the validation `utf8` (proto3 strings must be UTF-8;
`utf8` is what the linked upb checks, constantly true for versions that do not). [upb library,
called by src/proto/upb-generated/proto/s2a.upb.h:40, 52] -/
def checkStrings (utf8 : Bytes → Bool) (is : List Nat) (fs : List Field) : Bool :=
  is.all fun i => (lens i fs).all utf8

/-- All entries of a `map<string, string>` with field number `i` are messages with valid strings
(key = 1, value = 2). [upb library, called by src/proto/upb-generated/proto/s2a.upb.h:40, 52; table
at src/proto/upb-generated/proto/common.upb.c:38-41] -/
def checkEntries (utf8 : Bytes → Bool) (i : Nat) (fs : List Field) : Bool :=
  (lens i fs).all fun b =>
    match decode b with
    | none => false
    | some es => checkStrings utf8 [1, 2] es

/-- A singular submessage: every occurrence must parse, and several occurrences are merged,
which is parsing their concatenation. [upb library, called by
src/proto/upb-generated/proto/s2a.upb.h:40, 52] -/
def getSub {α : Type} (parse : Bytes → Option α) (i : Nat) (fs : List Field) :
    Option (Option α) :=
  match lens i fs with
  | [] => some none
  | ps => do
    let _ ← ps.mapM parse
    let m ← parse ps.flatten
    return some m

/-- A repeated submessage. [upb library, called by src/proto/upb-generated/proto/s2a.upb.h:40, 52]
-/
def getSubs {α : Type} (parse : Bytes → Option α) (i : Nat) (fs : List Field) :
    Option (List α) := (lens i fs).mapM parse

/-! ### Writing fields -/

/-- A singular scalar: zero is not written. [upb library, called by
src/proto/upb-generated/proto/s2a.upb.h:40, 52] -/
def putNum (i n : Nat) : List Field := if n = 0 then [] else [(i, .varint n)]

/-- A singular `bool`: false is not written (upb library, called by
src/proto/upb-generated/proto/s2a.upb.h:40, 52). -/
def putBool (i : Nat) (b : Bool) : List Field := if b then [(i, .varint 1)] else []

/-- A singular `string` or `bytes`: the empty string is not written. [upb library, called by
src/proto/upb-generated/proto/s2a.upb.h:40, 52] -/
def putBytes (i : Nat) (b : Bytes) : List Field := if b.isEmpty then [] else [(i, .len b)]

/-- Repeated `string`, `bytes` or submessages. [upb library, called by
src/proto/upb-generated/proto/s2a.upb.h:40, 52] -/
def putAll (i : Nat) (bs : List Bytes) : List Field := bs.map fun b => (i, .len b)

/-- A singular submessage or a member of a `oneof`: written when present. [upb library, called by
src/proto/upb-generated/proto/s2a.upb.h:40, 52] -/
def putOpt (i : Nat) : Option Bytes → List Field
  | none => []
  | some b => [(i, .len b)]

/-- A packed repeated scalar: nothing is written for the empty list. [upb library, called by
src/proto/upb-generated/proto/s2a.upb.h:40, 52] -/
def putPacked (i : Nat) (ns : List Nat) : List Field :=
  if ns.isEmpty then [] else [(i, .len (ns.flatMap varint))]

end S2A.Wire
