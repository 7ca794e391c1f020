import Verif.Spec.Wire
import Verif.Model.Groups
/-
The protobuf wire format with groups, as a grammar, and limits of 32 bits.
-/
namespace S2A.Spec.Upb
open S2A.Spec (groups IsVarint)
open Wire (Field Val)

/-- The tag that says `n`. -/
def IsTag (t : Bytes) (n : Nat) : Prop := IsVarint t ∧ groups t % 2 ^ 64 = n ∧ n < 2 ^ 32

/-- A field that is not a group. -/
inductive IsField : Bytes → Field → Prop
  | varint {t v : Bytes} {i : Nat} : IsTag t (8 * i) → i ≠ 0 → IsVarint v →
      IsField (t ++ v) (i, .varint (groups v % 2 ^ 64))
  | fixed64 {t b : Bytes} {i : Nat} : IsTag t (8 * i + 1) → i ≠ 0 → b.length = 8 →
      IsField (t ++ b) (i, .fixed64 b)
  | len {t n b : Bytes} {i : Nat} : IsTag t (8 * i + 2) → i ≠ 0 → IsVarint n →
      groups n % 2 ^ 64 = b.length → b.length < 2 ^ 31 - 1 → IsField (t ++ n ++ b) (i, .len b)
  | fixed32 {t b : Bytes} {i : Nat} : IsTag t (8 * i + 5) → i ≠ 0 → b.length = 4 →
      IsField (t ++ b) (i, .fixed32 b)

/-- A message whose groups are nested at most `d` deep: fields and groups, one after the other.
A group is a message between two tags with its number.  The fields of the message do not include
those in its groups. -/
inductive Message : Nat → Bytes → List Field → Prop
  | nil {d : Nat} : Message d [] []
  | field {d : Nat} {a r : Bytes} {f : Field} {fs : List Field} : IsField a f → Message d r fs →
      Message d (a ++ r) (f :: fs)
  | group {d i : Nat} {s inner e r : Bytes} {gs fs : List Field} : i ≠ 0 → IsTag s (8 * i + 3) →
      Message d inner gs → IsTag e (8 * i + 4) → Message (d + 1) r fs →
      Message (d + 1) (s ++ inner ++ e ++ r) fs

/-- A group, alone, nested at most `d` deep (itself included). -/
def IsGroup (d : Nat) (g : Bytes) : Prop :=
  ∃ d' i s inner e gs, d = d' + 1 ∧ g = s ++ inner ++ e ∧ i ≠ 0 ∧ IsTag s (8 * i + 3) ∧
    Message d' inner gs ∧ IsTag e (8 * i + 4)

/-- What cannot go on as a message with at most `d` levels of groups, whatever has come before. -/
inductive Refused : Nat → Bytes → Prop
  /-- More groups are opened than there are levels. -/
  | deep {d : Nat} {ts : List Bytes} {r : Bytes} :
      d < ts.length → (∀ t ∈ ts, ∃ i, i ≠ 0 ∧ IsTag t (8 * i + 3)) → Refused d (ts.flatten ++ r)
  /-- A group is not closed. -/
  | unclosed {d i : Nat} {s inner : Bytes} {gs : List Field} : IsTag s (8 * i + 3) →
      Message d inner gs → Refused (d + 1) (s ++ inner)
  /-- A group is closed with the number of another one. -/
  | mismatch {d i j : Nat} {s inner e r : Bytes} {gs : List Field} : IsTag s (8 * i + 3) →
      Message d inner gs → IsTag e (8 * j + 4) → j ≠ i → Refused (d + 1) (s ++ inner ++ e ++ r)
  /-- A group is closed that was not opened. -/
  | unopened {d j : Nat} {e r : Bytes} : IsTag e (8 * j + 4) → Refused d (e ++ r)
  /-- There is something wrong inside a group. -/
  | inside {d i : Nat} {s a x : Bytes} {gs : List Field} : IsTag s (8 * i + 3) →
      Message d a gs → Refused d x → (∀ j e r, j ≠ 0 → IsTag e (8 * j + 4) → x ≠ e ++ r) →
      Refused (d + 1) (s ++ a ++ x)
  /-- A tag does not fit in 32 bits. -/
  | bigTag {d : Nat} {t r : Bytes} : IsVarint t → 2 ^ 32 ≤ groups t % 2 ^ 64 → Refused d (t ++ r)
  /-- The number of a field or of a group is zero. -/
  | zero {d n : Nat} {t r : Bytes} : IsTag t n → n < 8 → Refused d (t ++ r)
  /-- There is no such type of values. -/
  | type {d n : Nat} {t r : Bytes} : IsTag t n → 6 ≤ n % 8 → Refused d (t ++ r)
  /-- A length of 2^31 - 1 or more. -/
  | bigLen {d i : Nat} {t n r : Bytes} : IsTag t (8 * i + 2) → IsVarint n →
      2 ^ 31 - 1 ≤ groups n % 2 ^ 64 → Refused d (t ++ n ++ r)
  /-- There are fewer bytes than the length says. -/
  | shortLen {d i : Nat} {t n r : Bytes} : IsTag t (8 * i + 2) → IsVarint n →
      r.length < groups n % 2 ^ 64 → Refused d (t ++ n ++ r)
  /-- There are fewer than eight or four bytes for a number of eight or four bytes. -/
  | short64 {d i : Nat} {t r : Bytes} : IsTag t (8 * i + 1) → r.length < 8 → Refused d (t ++ r)
  | short32 {d i : Nat} {t r : Bytes} : IsTag t (8 * i + 5) → r.length < 4 → Refused d (t ++ r)
  /-- A number does not end within the message or within ten bytes. -/
  | endless {d : Nat} {t : Bytes} : t ≠ [] → (∀ b ∈ t.take 10, 128 ≤ b.toNat) → Refused d t
  | endlessValue {d i : Nat} {t r : Bytes} : IsTag t (8 * i) →
      (∀ b ∈ r.take 10, 128 ≤ b.toNat) → Refused d (t ++ r)
  | endlessLen {d i : Nat} {t r : Bytes} : IsTag t (8 * i + 2) →
      (∀ b ∈ r.take 10, 128 ≤ b.toNat) → Refused d (t ++ r)

/-- The plain decoder of Model/Wire.lean, restricted to messages whose field numbers and lengths
keep the limits. -/
def plain (_ : Nat) (bs : Bytes) : Option (List Field) :=
  match Wire.decode bs with
  | none => none
  | some fs =>
    if fs.all fun f => f.1 < 2 ^ 29 && (match f.2 with
      | .len b => b.length < 2 ^ 31 - 1
      | _ => true) then some fs else none

end S2A.Spec.Upb
