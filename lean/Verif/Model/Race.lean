import Verif.Model.Machine
/-
What the methods of `S2AFrameProtector` and `S2AProxy` do to shared memory.  What they compute
is in Model/Frame.lean and Model/Proxy.lean; here a call is described by what happens to its
records, and its actions are listed in the order of the code.
-/
namespace S2A.Race
open Machine

/-! ### The frame protector -/

/-- The two half connections of the crypter (src/record_protocol/s2a_crypter.h).
[src/record_protocol/s2a_crypter.h:152-153] -/
inductive Half
  | inbound
  | outbound
  deriving DecidableEq, Repr

/-- The mutexes: include/s2a_frame_protector.h:155 and 157, and `mu_` of each half connection
(src/record_protocol/s2a_half_connection.h:83). -/
inductive Mutex
  | protectMu
  | unprotectMu
  | half (h : Half)
  deriving DecidableEq, Repr

/-- Members that are not `unique_ptr`s: those of a half connection (sequence number, nonce,
secret, flags; src/record_protocol/s2a_half_connection.h:81-89), and those of the crypter that
`Unprotect` changes (`close_notify_received_`, the state of the handshake messages, the channel
factory, the ticket sender; src/record_protocol/s2a_crypter.h). -/
inductive Member
  | half (h : Half)
  | crypter
  deriving DecidableEq, Repr

/-- Where AEAD objects are used: `TagLength` called by `RecordOverhead` (s2a_crypter.cc:481),
`TagLength` called by `Protect` (s2a_crypter.cc:285), and `Encrypt` and `Decrypt` of a half
connection. -/
inductive Place
  | recordOverhead
  | tagLength
  | aead
  deriving DecidableEq, Repr

/-- The `unique_ptr` members are the `aead_crypter_` of the half connections.
[src/record_protocol/s2a_half_connection.h:81-89] -/
def frameShape : Shape := { Lock := Mutex, Ptr := Half, Var := Member, Site := Place }

/-- Actions of a frame protector (see the functions below). -/
abbrev Act := Action frameShape

/-- `RecordOverhead` (s2a_crypter.cc:479-482), which calls
`S2AHalfConnection::TagLength` (s2a_half_connection.cc:256), which takes no lock. -/
def overhead : List Act :=
  [.load .recordOverhead .inbound, .deref .recordOverhead .inbound .fixed]

/-- `S2AHalfConnection::Encrypt` and `Decrypt` (s2a_half_connection.cc:171-199); `usable` if the
check at their beginning passes. -/
def crypt (h : Half) (usable : Bool) : List Act :=
  .acquire (.half h) ::
    ([.load .aead h, .read (.half h)] ++
      if usable then
        [.write (.half h), .load .aead h, .deref .aead h .fixed, .deref .aead h .mutable]
      else []) ++
  [.release (.half h)]

/-- `S2AHalfConnection::UpdateKey` (s2a_half_connection.cc:201-254). -/
def updateKey (h : Half) (ok : Bool) : List Act :=
  .acquire (.half h) ::
    (.write (.half h) ::
      if ok then [.install h, .free h, .write (.half h)] else [.write (.half h)]) ++
  [.release (.half h)]

/-- What happens to a record in `S2ACrypter::Protect` (s2a_crypter.cc:258-331). -/
inductive Sealing
  | tooLong
  | tooSmall
  | badType
  | tried (usable ok : Bool)
  deriving DecidableEq, Repr

/-- `S2ACrypter::Protect`. [src/record_protocol/s2a_crypter.cc:258-331] -/
def crypterProtect : Sealing → List Act
  | .tooLong => []
  | .tooSmall => overhead
  | .badType => overhead ++ [.load .tagLength .outbound, .deref .tagLength .outbound .fixed]
  | .tried usable _ =>
    overhead ++ [.load .tagLength .outbound, .deref .tagLength .outbound .fixed] ++
      crypt .outbound usable

/-- The loop body of `Protect` (s2a_frame_protector.cc:254-315): after a success, the number of
bytes written is checked. -/
def protectOne (r : Sealing) : List Act :=
  crypterProtect r ++ if r = .tried true true then overhead else []

/-- What happens to a record in `S2ACrypter::Unprotect` (s2a_crypter.cc:333-477). -/
inductive Opening
  /-- Not a record, the frame protector stops before it calls the crypter. -/
  | misframed
  | closed
  | tooShort
  | tooLong
  | badHeader
  | refused (usable : Bool)
  /-- No type byte, or an unknown one. -/
  | invalid
  | alert (closeNotify : Bool)
  /-- Application data; perhaps the stored tickets are sent. -/
  | data (sendsTickets : Bool)
  /-- Handshake messages; perhaps with a key update, which works or not. -/
  | handshake (update : Option Bool)
  deriving DecidableEq, Repr

/-- `S2ACrypter::Unprotect`.  `close_notify_received_` is read first, then `RecordOverhead` is
called twice. [src/record_protocol/s2a_crypter.cc:333-477] -/
def crypterUnprotect : Opening → List Act
  | .misframed => []
  | .closed => [.read .crypter]
  | .tooShort => .read .crypter :: overhead
  | .tooLong => .read .crypter :: overhead ++ overhead
  | .badHeader => .read .crypter :: overhead ++ overhead
  | .refused usable => .read .crypter :: overhead ++ overhead ++ crypt .inbound usable
  | .invalid => .read .crypter :: overhead ++ overhead ++ crypt .inbound true
  | .alert closeNotify =>
    .read .crypter :: overhead ++ overhead ++ crypt .inbound true ++
      if closeNotify then [.write .crypter] else []
  | .data sends =>
    .read .crypter :: overhead ++ overhead ++ crypt .inbound true ++
      .read .crypter :: if sends then [.write .crypter] else []
  | .handshake update =>
    .read .crypter :: overhead ++ overhead ++ crypt .inbound true ++ [.write .crypter] ++
      (match update with
        | some ok => updateKey .inbound ok
        | none => []) ++
      [.write .crypter]

/-- A call on a frame protector.  The lists say what happens to the records, one after the
other.  (Lists that go on after a failure are allowed here, although the code returns.)
[include/s2a_frame_protector.h:63-140] -/
inductive Call
  /-- `Protect` with a result buffer from the allocator (s2a_frame_protector.cc:233-241). -/
  | protect (rs : List Sealing)
  /-- `Protect` into a given buffer (s2a_frame_protector.cc:243-317). -/
  | protectInto (rs : List Sealing)
  /-- `Unprotect` of any number of records (s2a_frame_protector.cc:379-467). -/
  | unprotect (rs : List Opening)
  /-- `Unprotect` of one record into a given buffer (s2a_frame_protector.cc:319-376). -/
  | unprotectInto (r : Opening)
  /-- `NumberBytesToProtect`, `NumberBytesToUnprotect` (s2a_frame_protector.cc:471-502), and
  `Unprotect` of too few bytes. -/
  | size
  deriving DecidableEq, Repr

/-- What a call does. [src/frame_protector/s2a_frame_protector.cc:233-502] -/
def Call.actions : Call → List Act
  | .protect rs =>
    overhead ++ (.acquire .protectMu :: rs.flatMap protectOne ++ [.release .protectMu])
  | .protectInto rs => .acquire .protectMu :: rs.flatMap protectOne ++ [.release .protectMu]
  | .unprotect rs =>
    overhead ++ (.acquire .unprotectMu ::
      (rs.flatMap (fun r => overhead ++ crypterUnprotect r) ++ overhead) ++
      [.release .unprotectMu])
  | .unprotectInto r => overhead ++ crypterUnprotect r
  | .size => overhead

/-- Whether it is a call of `Unprotect`. [no counterpart in the code] -/
def Call.unprotects : Call → Bool
  | .unprotect _ => true
  | .unprotectInto _ => true
  | _ => false

/-- Whether a key update works in the call. [no counterpart in the code] -/
def Call.updates : Call → Bool
  | .unprotect rs => rs.contains (.handshake (some true))
  | .unprotectInto r => r == .handshake (some true)
  | _ => false

/-- A thread makes one call after the other. [the user of include/s2a_frame_protector.h] -/
def thread (calls : List Call) : List Act := calls.flatMap Call.actions

/-! ### The proxy -/

/-- `unique_ptr` members of `S2AProxy` that are changed after its construction
(include/s2a_proxy.h:116-148). -/
inductive ProxyPtr
  | result
  | context
  deriving DecidableEq, Repr

/-- Other members that are changed: the flags, the token cache and the selected identity are
one; the channel factory and its options (which are moved from) another.
[include/s2a_proxy.h:116-148] -/
inductive ProxyVar
  | state
  | channel
  deriving DecidableEq, Repr

/-- `mu_` is the only mutex. [include/s2a_proxy.h:144] -/
def proxyShape : Shape := { Lock := Unit, Ptr := ProxyPtr, Var := ProxyVar, Site := Unit }

/-- Actions of a proxy (see the functions below). -/
abbrev ProxyAct := Action proxyShape

/-- How far a response brings a result (s2a_proxy.cc:258-353). -/
inductive ResultOutcome
  | noResult
  /-- No session state. -/
  | noState
  /-- The TLS version, the ciphersuite or the local identity is bad; `fields` are the members of
  `result_` written before. -/
  | incomplete (fields : Nat)
  | complete
  deriving DecidableEq, Repr

/-- Assign a new object to a `unique_ptr` member. [src/handshaker/s2a_proxy.cc:265] -/
def assign (p : ProxyPtr) : List ProxyAct := [.install p, .free p]

/-- Write members of the object a `unique_ptr` member points to.
[src/handshaker/s2a_proxy.cc:258-353] -/
def fill (p : ProxyPtr) : List ProxyAct := [.load () p, .deref () p .mutable]

/-- A call on the proxy. [include/s2a_proxy.h:63-90] -/
inductive ProxyCall
  /-- `GetBytesForS2A` (s2a_proxy.cc:170-202). -/
  | forS2A
  /-- `GetBytesForPeer` (s2a_proxy.cc:204-363). -/
  | forPeer (r : ResultOutcome)
  /-- `IsHandshakeFinished` (s2a_proxy.cc:767-770). -/
  | isFinished
  /-- `CreateFrameProtector` (s2a_proxy.cc:784-807), if the handshake is finished or not. -/
  | createFrameProtector (finished : Bool)
  /-- `GetS2AContext` (s2a_proxy.cc:809-816). -/
  | getContext (finished : Bool)
  deriving DecidableEq, Repr

/-- What a call does.  Moving out of `context_` puts the null pointer there, and hands the old
object to the caller. [src/handshaker/s2a_proxy.cc:170-363, 767-816] -/
def ProxyCall.actions : ProxyCall → List ProxyAct
  | .forS2A => .acquire () :: [.read .state, .write .state] ++ [.release ()]
  | .forPeer r =>
    .acquire () :: (.write .state ::
      match r with
      | .noResult => []
      | .noState => []
      | .incomplete n => assign .result ++ (List.replicate n ()).flatMap fun _ => fill .result
      | .complete => assign .result ++ fill .result ++ assign .context ++ fill .context) ++
    [.release ()]
  | .isFinished => .acquire () :: [.read .state] ++ [.release ()]
  | .createFrameProtector finished =>
    .acquire () :: [.read .state] ++ [.release ()] ++
      if finished then fill .result ++ [.write .channel] else []
  | .getContext finished =>
    .acquire () :: [.read .state] ++ [.release ()] ++ if finished then [.install .context] else []

/-- Whether the call touches the result of the handshake outside of the lock. [no counterpart in
the code] -/
def ProxyCall.unlocked : ProxyCall → Bool
  | .createFrameProtector true => true
  | .getContext true => true
  | _ => false

/-- Whether the call may store a result. [no counterpart in the code] -/
def ProxyCall.stores : ProxyCall → Bool
  | .forPeer (.incomplete _) => true
  | .forPeer .complete => true
  | _ => false

/-- A thread makes one call after the other. [the user of include/s2a_proxy.h] -/
def proxyThread (calls : List ProxyCall) : List ProxyAct := calls.flatMap ProxyCall.actions

end S2A.Race
