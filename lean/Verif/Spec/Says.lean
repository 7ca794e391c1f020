import Verif.Spec.Reference
import Verif.Model.Text
/-
What the reference machine of `Spec/Reference.lean` says: for every call, in every state, the lines
that are logged and the message of the status.  The library does not fail; `q` is what it has in its
error queue after it refused a record.
-/
namespace S2A.Spec
open Record (Code RecordType)

/-- Nothing is logged, and the status has no message. -/
def silence : S2A.Said := ⟨[], ""⟩

/-- One sentence, logged and returned. -/
def sentence (t : String) : S2A.Said := ⟨[t], t⟩

/-- What is wrong with handshake bytes that were refused, by what the connection is left with. -/
def Ear.complaint : Ear → String
  | .stale .update _ => "Key update should be the last message in a plaintext."
  | _ => "Unexpected handshake message type."

namespace Machine

/-- What is said when the tickets are handed on. -/
def settleSays (m : Machine) : List String :=
  if m.ear.inTicket then
    ["Retrieving tickets failed: |GetStoredTickets| should not be called while waiting to read more ticket bytes."]
  else []

/-- What is said about the content of a handshake record. -/
def hearSays (m : Machine) (content : Bytes) : S2A.Said :=
  match m.ear.hear content with
  | none => silence
  | some (ear, s) =>
    if !s.accepted then
      sentence ("Failed to process handshake message result: " ++ ear.complaint)
    else if s.ticket then
      if m.stage = .settled then
        ⟨["Received a session ticket from the peer. It is being ignored."], ""⟩
      else if 5 ≤ (m.kept ++ s.tickets).length then ⟨settleSays { m with ear := ear }, ""⟩
      else silence
    else silence

/-- What is said about the plaintext of a record. -/
def plaintextSays (m : Machine) (inner : Bytes) : S2A.Said :=
  match unpad inner with
  | none => sentence "TLS 1.3 record does not have record type byte."
  | some (content, t) =>
    if t = alertType then
      if content.length < 2 then sentence "The TLS 1.3 alert record is too small."
      else if content[1]? = some 0 then sentence "Received close notify alert."
      else sentence "Received alert of type 21."
    else if t = handshakeType then m.hearSays content
    else if t = appDataType then
      if m.waiting then
        sentence "Received a non handshake message while expecting a handshake message."
      else if m.stage = .collecting then ⟨m.settleSays, ""⟩
      else silence
    else sentence ("TLS record type byte " ++ toString t.toNat ++ " is invalid.")

/-- Is the AEAD that of BoringSSL with the one-shot interface? -/
def oneShot (L : Lib) (m : Machine) : Bool := L.boring && decide (m.inp.suite.alg = .chachaPoly)

/-- What is said about a record. -/
def receiveSays (L : Lib) (q : String) (m : Machine) (header payload : Bytes) (room : Nat) :
    S2A.Said :=
  let n := header.length + payload.length
  if m.closed then sentence "Close notify alert has been received. Close the connection."
  else if n < 22 then sentence "Did not receive a complete TLS 1.3 record."
  else if 16406 < n then sentence "TLS 1.3 record contains more bytes than allowed."
  else if header ≠ recordHeader payload.length then sentence "TLS 1.3 record header is invalid."
  else if m.inDead ∨ m.inp.seq = 2 ^ 64 then
    sentence ("Decryption failed: " ++ "|S2AHalfConnection| is in unusable state.")
  else if room + 16 < payload.length then
    sentence ("Decryption failed: " ++
      if m.oneShot L then "|plaintext| is too small to hold the resulting plaintext."
      else "|plaintext| is too small to hold the decrypted ciphertext.")
  else match m.inp.open L header payload with
    | none =>
      sentence ("Decryption failed: " ++
        if m.oneShot L then "open operation failed. " ++ q else "Checking tag failed: " ++ q)
    | some inner => Machine.plaintextSays { m with inp := m.inp.next } inner

/-- What is said when a record is to be made. -/
def sendSays (m : Machine) (type : RecordType) (content : Bytes) (room : Nat) : S2A.Said :=
  if 16384 < content.length then
    sentence "|plaintext| contains more bytes than are allowed in a single TLS 1.3 record."
  else if room < content.length + 22 then
    sentence "|record| is not large enough to hold the TLS 1.3 record built from |plaintext|."
  else match contentType type with
    | none => ⟨["Unable to parse TLS record type."], "Unrecognized record type."⟩
    | some _ =>
      if m.outDead ∨ m.out.seq = 2 ^ 64 then
        ⟨["Encryption failure: |S2AHalfConnection| is in unusable state."],
          "|S2AHalfConnection| is in unusable state."⟩
      else silence

/-! ## The frame protector -/

/-- What is said while the fragments of a message become records. -/
def sendAllSays (L : Lib) : Machine → List Bytes → Nat → S2A.Said
  | _, [], _ => silence
  | m, x :: xs, room =>
    match m.send L .applicationData x room with
    | (m', .ok, w) => sendAllSays L m' xs (room - w.length)
    | _ =>
      let said := m.sendSays .applicationData x room
      ⟨said.log ++ ["Failed to protect: " ++ said.message], said.message⟩

/-- What is said about bytes that do not begin with a record: either the first three are not those
of a header, or the header announces more bytes than there are. -/
def noRecordSays (b : Bytes) : S2A.Said :=
  if b.take 3 ≠ [23, 3, 3] then
    ⟨["Failed to compute TLS record size: TLS record header is incorrectly formatted."],
      "TLS record header is incorrectly formatted."⟩
  else
    ⟨["Failed to isolate TLS payload: |vecs| is too small to hold TLS record."],
      "|vecs| is too small to hold TLS record."⟩

/-- What is said about the records in some bytes, from the `i`-th of the call on. -/
def unprotectAllSays (L : Lib) (errs : Nat → String) : (fuel i : Nat) → Machine → Bytes → S2A.Said
  | 0, _, _, _ => silence
  | fuel + 1, i, m, b =>
    if b.length < 22 then silence
    else match firstRecord b with
      | none => noRecordSays b
      | some (header, payload, rest) =>
        let said := m.receiveSays L (errs i) header payload payload.length
        match m.receive L header payload payload.length with
        | none => silence
        | some (m', .ok, _) =>
          let later := unprotectAllSays L errs fuel (i + 1) m' rest
          ⟨said.log ++ later.log, later.message⟩
        | some _ =>
          let error := "Failed to unprotect bytes from peer: " ++ said.message
          ⟨said.log ++ [error], error⟩

/-- What is said about the first record in some bytes. -/
def unprotectFirstSays (L : Lib) (q : String) (m : Machine) (b : Bytes) (room : Nat) : S2A.Said :=
  match firstRecord b with
  | none => noRecordSays b
  | some (header, payload, _) =>
    let said := m.receiveSays L q header payload room
    match m.receive L header payload room with
    | none => silence
    | some (_, .ok, _) => said
    | some _ => ⟨said.log ++ ["Failed to unprotect bytes from peer."], said.message⟩

/-- What is said in a call; too few bytes are refused without a line in the log. -/
def frameSays (L : Lib) (errs : Nat → String) (m : Machine) : FrameCall → S2A.Said
  | .protect b => m.sendAllSays L (fragments b) (b.length + 22 * recordCount b.length)
  | .protectInto b room => m.sendAllSays L (fragments b) room
  | .unprotect b =>
    if b.length < 22 then ⟨[], "|protected_bytes| is too small to contain a TLS record."⟩
    else unprotectAllSays L errs b.length 0 m b
  | .unprotectInto b room =>
    if b.length < 22 then ⟨[], "|protected_bytes| is too small to contain a TLS record."⟩
    else m.unprotectFirstSays L (errs 0) b room

/-- A history of calls, each with the error queues of the library during it: what is said in
each; `none` if one of them is undefined behaviour. -/
def frameTalk (L : Lib) : Machine → List (FrameCall × (Nat → String)) → Option (List S2A.Said)
  | _, [] => some []
  | m, (x, errs) :: xs =>
    match m.frameStep L x with
    | none => none
    | some (m', _) =>
      match m'.frameTalk L xs with
      | none => none
      | some later => some (m.frameSays L errs x :: later)

end Machine

end S2A.Spec
