import Verif.Model.Race
/-
The functions that a user gives to a frame protector or a proxy, and when they are called: which
locks are held then.  They may make calls on the same object.

A call is a list of steps (`Call.steps`): the actions of Model/Race.lean, and the points at which
a function of the user may be called.  At such a point the function is called or not, and makes
any calls that its author lets it make, which may in turn call functions of the user.
-/
namespace S2A.Race
open Machine

/-- A step of a call: an action on shared memory, or a point at which a function of the user may
be called. [absl::Mutex and functions of the user; no one place in /repo] -/
inductive Step (S : Shape) (K : Type)
  | act (a : Action S)
  | callback (k : K)

/-- The action of a step that is one. [no counterpart in the code] -/
def Step.action? {S : Shape} {K : Type} : Step S K → Option (Action S)
  | .act a => some a
  | .callback _ => none

/-- Actions as steps. [no counterpart in the code] -/
def acts {S : Shape} {K : Type} (as : List (Action S)) : List (Step S K) := as.map .act

/-- What may happen when `steps` are made, if a call `c` has the steps `body c` and if the
function `k` of the user may make the calls `c` with `may k c`: the actions, in their order.  An
`absl::Mutex` is not reentrant: a thread that locks it twice waits for itself, as in
Model/Machine.lean. [functions of the user; no one place in /repo] -/
inductive Unfolds {S : Shape} {K C : Type} (body : C → List (Step S K)) (may : K → C → Prop) :
    List (Step S K) → List (Action S) → Prop
  | nil : Unfolds body may [] []
  | act {a steps as} : Unfolds body may steps as → Unfolds body may (.act a :: steps) (a :: as)
  /-- The function is not called, or it returns. -/
  | leave {k steps as} : Unfolds body may steps as → Unfolds body may (.callback k :: steps) as
  /-- The function makes a call. -/
  | nested {k c steps inner as} : may k c → Unfolds body may (body c) inner →
      Unfolds body may (.callback k :: steps) as →
      Unfolds body may (.callback k :: steps) (inner ++ as)

/-! ### The frame protector -/

/-- The functions that a user gives to a frame protector (include/s2a_frame_protector.h:49-55).
The channel factory is an object with a destructor of the user's: it is moved into the options for
the ticket sender and destroyed with them when session tickets are sent
(src/record_protocol/s2a_crypter.cc:582-592). -/
inductive Callback
  | logger
  | allocator
  | destroy
  | channelFactory
  deriving DecidableEq, Repr

/-- Steps of a frame protector (see the functions below). -/
abbrev FrameStep := Step frameShape Callback

/-- `S2ACrypter::Protect`: the logger is called on every failure
(s2a_crypter.cc:268, 278, 291, 301, 322). -/
def crypterProtectSteps : Sealing → List FrameStep
  | .tried true true => acts (crypterProtect (.tried true true))
  | r => acts (crypterProtect r) ++ [.callback .logger]

/-- The loop body of `Protect`: the logger and `destroy` are called on a failure
(s2a_frame_protector.cc:296-302). -/
def protectOneSteps : Sealing → List FrameStep
  | .tried true true => crypterProtectSteps (.tried true true) ++ acts overhead
  | r => crypterProtectSteps r ++ [.callback .logger, .callback .destroy]

/-- `S2ACrypter::Unprotect` (s2a_crypter.cc:333-593).  The logger is called on every failure, and
the channel factory is destroyed when tickets are sent.  Simplified: where the code calls them in some cases
only, there is a point for it in all. -/
def crypterUnprotectSteps : Opening → List FrameStep
  | .misframed => []
  | .alert closeNotify =>
    acts ((.read .crypter : Act) :: overhead ++ overhead ++ crypt .inbound true) ++
      .callback .logger :: acts (if closeNotify then [(.write .crypter : Act)] else [])
  | .data sends =>
    acts ((.read .crypter : Act) :: overhead ++ overhead ++ crypt .inbound true ++ [.read .crypter]) ++
      .callback .logger ::
        if sends then [.callback .channelFactory, .act (.write .crypter)] else []
  | .handshake update =>
    acts ((.read .crypter : Act) :: overhead ++ overhead ++ crypt .inbound true ++ [.write .crypter] ++
      (match update with
        | some ok => updateKey .inbound ok
        | none => [])) ++
      [.callback .logger, .callback .channelFactory, .act (.write .crypter)]
  | r => acts (crypterUnprotect r) ++ [.callback .logger]

/-- The loop body of `Unprotect` with a result from the allocator (s2a_frame_protector.cc:394-464):
the logger is called if the record is not complete; otherwise a buffer is allocated, and on a
failure of the crypter the logger is called and all buffers are destroyed. -/
def unprotectOneSteps : Opening → List FrameStep
  | .misframed => acts overhead ++ [.callback .logger]
  | r => acts overhead ++ .callback .allocator :: crypterUnprotectSteps r ++
      [.callback .logger, .callback .destroy]

/-- What a call does (`Call.actions`), and where it may call functions of the user.
[src/frame_protector/s2a_frame_protector.cc:233-502] -/
def Call.steps : Call → List FrameStep
  | .protect rs =>
    acts overhead ++ .callback .allocator ::
      (.act (.acquire .protectMu) :: rs.flatMap protectOneSteps ++ [.act (.release .protectMu)]) ++
      [.callback .destroy]
  | .protectInto rs =>
    .act (.acquire .protectMu) :: rs.flatMap protectOneSteps ++ [.act (.release .protectMu)]
  | .unprotect rs =>
    acts overhead ++ (.act (.acquire .unprotectMu) ::
      (rs.flatMap unprotectOneSteps ++ acts overhead) ++ [.act (.release .unprotectMu)])
  | .unprotectInto r => acts overhead ++ crypterUnprotectSteps r ++ [.callback .logger]
  | .size => acts overhead

/-- The methods. [include/s2a_frame_protector.h:63-140] -/
inductive Method
  | protect
  | protectInto
  | unprotect
  | unprotectInto
  | size
  deriving DecidableEq, Repr

/-- The method that is called. [include/s2a_frame_protector.h:63-140] -/
def Call.method : Call → Method
  | .protect _ => .protect
  | .protectInto _ => .protectInto
  | .unprotect _ => .unprotect
  | .unprotectInto _ => .unprotectInto
  | .size => .size

/-- What a thread may do that makes one call after the other, if the functions of the user may
call the methods `may` on the same frame protector. [the user of include/s2a_frame_protector.h] -/
def Does (may : Callback → Method → Prop) (calls : List Call) (as : List Act) : Prop :=
  Unfolds Call.steps (fun k c => may k c.method) (calls.flatMap Call.steps) as

/-! ### The proxy -/

/-- The functions that a user gives to a proxy (include/s2a_proxy.h:51-60). -/
inductive ProxyCallback
  | logger
  | tokenManager
  deriving DecidableEq, Repr

/-- Steps of a proxy (see the functions below). -/
abbrev ProxyStep := Step proxyShape ProxyCallback

/-- What a call does, and where it may call functions of the user: the access token manager in
`PopulateTokenCache` (s2a_proxy.cc:111-168), the logger on failures.  Simplified: where the code
calls them in some cases only, there is a point for it in all; and `forPeer` calls the logger
before its actions, not among them. [src/handshaker/s2a_proxy.cc:170-363, 767-816] -/
def ProxyCall.steps : ProxyCall → List ProxyStep
  | .forS2A =>
    .act (.acquire ()) ::
      ([.act (.read .state), .callback .tokenManager, .callback .logger, .act (.write .state)] ++
      [.act (.release ())])
  | .forPeer r =>
    .act (.acquire ()) :: .callback .logger :: acts (ProxyCall.forPeer r).actions.tail
  | .isFinished => acts ProxyCall.isFinished.actions
  | .createFrameProtector true => acts (ProxyCall.createFrameProtector true).actions
  | .createFrameProtector false =>
    acts (ProxyCall.createFrameProtector false).actions ++ [.callback .logger]
  | .getContext true => acts (ProxyCall.getContext true).actions
  | .getContext false => acts (ProxyCall.getContext false).actions ++ [.callback .logger]

/-- The methods. [include/s2a_proxy.h:63-90] -/
inductive ProxyMethod
  | forS2A
  | forPeer
  | isFinished
  | createFrameProtector
  | getContext
  deriving DecidableEq, Repr

/-- The method that is called. [include/s2a_proxy.h:63-90] -/
def ProxyCall.method : ProxyCall → ProxyMethod
  | .forS2A => .forS2A
  | .forPeer _ => .forPeer
  | .isFinished => .isFinished
  | .createFrameProtector _ => .createFrameProtector
  | .getContext _ => .getContext

/-- What a thread may do that makes one call after the other, if the functions of the user may
call the methods `may` on the same proxy. [the user of include/s2a_proxy.h] -/
def ProxyDoes (may : ProxyCallback → ProxyMethod → Prop) (calls : List ProxyCall)
    (as : List ProxyAct) : Prop :=
  Unfolds ProxyCall.steps (fun k c => may k c.method) (calls.flatMap ProxyCall.steps) as

end S2A.Race
