import Verif.Lemmas.Reach
import Verif.Props.Toy
/-
Concrete connections over the toy library, used only in `example`s and counterexamples.
-/
namespace S2A.Record.Demo

/-- Two ends: what `left` sends `right` receives. -/
def leftArgs : CreateArgs :=
  { tlsVersion := .tls1_3, ciphersuite := .aes128GcmSha256, connectionId := 7, url := [1],
    localIdentity := ⟨.spiffeId, [65]⟩, inSecret := List.replicate 32 1,
    outSecret := List.replicate 32 2, inSequence := 5, outSequence := 9, hasSender := true,
    hasFactory := true, hasLogger := true }

def rightArgs : CreateArgs :=
  { leftArgs with inSecret := leftArgs.outSecret, outSecret := leftArgs.inSecret,
                  inSequence := leftArgs.outSequence, outSequence := leftArgs.inSequence }

/-- The created connection (any value if creation failed). -/
def conn (a : CreateArgs) : Conn :=
  match create Lib.toy .none .none a with
  | .ok (.ok c) => c
  | _ => ⟨0, [], ⟨.spiffeId, []⟩, ⟨.other 0, 0, 0, false, false, [], [], ⟨.aes128gcm, []⟩⟩,
      ⟨.other 0, 0, 0, false, false, [], [], ⟨.aes128gcm, []⟩⟩, false, .init, .notReceived,
      false, false, []⟩

def left : Conn := conn leftArgs
def right : Conn := conn rightArgs

theorem left_created : Created Lib.toy leftArgs left := ⟨.none, .none, rfl⟩
theorem right_created : Created Lib.toy rightArgs right := ⟨.none, .none, rfl⟩

/-- The suite in use. -/
def suite : Spec.Suite := ⟨.aes128gcm, .sha256, 16⟩

/-- The record with the given inner plaintext at a position of the direction left → right. -/
def recordAt (d : Spec.Dir) (inner : Bytes) : Bytes := d.protect Lib.toy inner

/-- `right` is given the record with inner plaintext `inner` that is sealed at position `d`,
cut after its header. -/
def recv (d : Spec.Dir) (inner : Bytes) : Op :=
  let r := recordAt d inner
  .unprotect .none (.buf (r.take 5)) [.buf (r.drop 5)] (.buf (List.replicate inner.length 9))

/-- Position `n` of the direction left → right. -/
def pos (n : Nat) : Spec.Dir := ⟨suite, leftArgs.outSecret, 9 + n⟩

/-- `right` is given a sequence of records sealed at consecutive positions. -/
def recvAll : Spec.Dir → List Bytes → List Op
  | _, [] => []
  | d, x :: xs => recv d x :: recvAll d.next xs

/-- `right` is given records sealed at the given positions. -/
def recvs (l : List (Spec.Dir × Bytes)) : List Op := l.map fun x => recv x.1 x.2

/-- After a key update. -/
def upd (d : Spec.Dir) : Spec.Dir := d.update Lib.toy

end S2A.Record.Demo
