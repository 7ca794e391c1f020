import Verif.Model.Context
/-
The protobuf wire format as a grammar (https://protobuf.dev/programming-guides/encoding), without
saying how it is read.
-/
namespace S2A.Spec
open Wire (Field Val)

/-- The number that groups of seven bits mean, the least significant group first. -/
def groups : Bytes → Nat
  | [] => 0
  | b :: bs => b.toNat % 128 + 128 * groups bs

/-- A varint: bytes with the highest bit set, then one without; at most ten. -/
def IsVarint (bs : Bytes) : Prop :=
  ∃ init last, bs = init ++ [last] ∧ (∀ b ∈ init, 128 ≤ b.toNat) ∧ last.toNat < 128 ∧
    bs.length ≤ 10

/-- A field: a tag, which gives its number and the type of the value, and the value. -/
inductive WireField : Bytes → Field → Prop
  | varint {t v : Bytes} {i : Nat} : IsVarint t → groups t = 8 * i → i ≠ 0 → IsVarint v →
      WireField (t ++ v) (i, .varint (groups v % 2 ^ 64))
  | fixed64 {t b : Bytes} {i : Nat} : IsVarint t → groups t = 8 * i + 1 → i ≠ 0 →
      b.length = 8 → WireField (t ++ b) (i, .fixed64 b)
  | len {t n b : Bytes} {i : Nat} : IsVarint t → groups t = 8 * i + 2 → i ≠ 0 → IsVarint n →
      groups n = b.length → WireField (t ++ n ++ b) (i, .len b)
  | fixed32 {t b : Bytes} {i : Nat} : IsVarint t → groups t = 8 * i + 5 → i ≠ 0 →
      b.length = 4 → WireField (t ++ b) (i, .fixed32 b)

/-- A message: fields, one after the other. -/
inductive WireMessage : Bytes → List Field → Prop
  | nil : WireMessage [] []
  | cons {a r : Bytes} {f : Field} {fs : List Field} : WireField a f → WireMessage r fs →
      WireMessage (a ++ r) (f :: fs)

/-- The number that counts for field `i`: the last varint with that number, 0 if there is none. -/
def lastNumber (i : Nat) (fs : List Field) : Nat :=
  fs.foldl (fun n f => match f with
    | (j, .varint m) => if j = i then m else n
    | _ => n) 0

/-- The bytes that count for field `i`: the last ones with that number, none if there are none. -/
def lastBytes (i : Nat) (fs : List Field) : Bytes :=
  fs.foldl (fun b f => match f with
    | (j, .len c) => if j = i then c else b
    | _ => b) []

/-- A context of which only the first `k` of its eight parts have arrived; what is missing has the
value zero of the protocol: no bytes, TLS 1.2, AES-128-GCM, not resumed. -/
def shortened (k : Nat) (c : Context) : Context :=
  { applicationProtocol := if 0 < k then c.applicationProtocol else []
    tlsVersion := if 1 < k then c.tlsVersion else .tls1_2
    ciphersuite := if 2 < k then c.ciphersuite else .aes128GcmSha256
    peerIdentity := if 3 < k then c.peerIdentity else .empty
    localIdentity := if 4 < k then c.localIdentity else .empty
    peerCertFingerprint := if 5 < k then c.peerCertFingerprint else []
    localCertFingerprint := if 6 < k then c.localCertFingerprint else []
    isHandshakeResumed := if 7 < k then c.isHandshakeResumed else false }

end S2A.Spec
