import Verif.Model.Proxy
/-
Threads that call methods of one `S2AProxy` (src/handshaker/s2a_proxy.cc) at the same time.

Each method is written as a program: the steps at which it touches what the threads share (the
mutex and the members of the proxy), with the local computations in between.  Threads are
interleaved at these steps.  Three methods hold the mutex all the time; `CreateFrameProtector` and
`GetS2AContext` hold it only while they ask whether the handshake is finished.  (Model/Race.lean
says which of the accesses race in the sense of the C++ memory model; here every access of a member
is one step.)
-/
namespace S2A.Proxy
open S2A.Proto S2A.Util

/-- An assignment to a member of the proxy that is changed after its construction
(include/s2a_proxy.h:116-148).  Writing a member of the object that `result_` points to is given as
the object that results: only one thread at a time, the one with the mutex, writes to it.
[src/handshaker/s2a_proxy.cc:111-168, 191, 250-352, 801, 815] -/
inductive Assign
  | cache (c : List (Identity × Bytes))
  | first (b : Bool)
  | selected (i : Identity)
  | finished
  | result (r : HsResult)
  | context (c : Option Context)
  | noFactory

/-- What the assignment does. [include/s2a_proxy.h:116-148] -/
def Assign.apply : Assign → State → State
  | .cache c, s => { s with cache := c }
  | .first b, s => { s with first := b }
  | .selected i, s => { s with selected := some i }
  | .finished, s => { s with finished := true }
  | .result r, s => { s with result := some r }
  | .context c, s => { s with context := c }
  | .noFactory, s => { s with hasFactory := false }

/-- A program. [no counterpart in the code] -/
inductive Prog
  /-- The call returns. -/
  | done (ev : Event)
  | ub (e : UB)
  /-- Wait for `mu_` and lock it. -/
  | acquire (k : Prog)
  | release (k : Prog)
  /-- Read a member; `k` uses one member of the state only, or members that are written with the
  mutex only, which the thread has. -/
  | read (k : State → Prog)
  | write (a : Assign) (k : Prog)

/-- Several assignments, one after the other. [no counterpart in the code] -/
def Prog.writes (as : List Assign) (k : Prog) : Prog := as.foldr .write k

/-- `GetBytesForS2A` (s2a_proxy.cc:170-202).  All members it reads are written under the mutex
only, so it reads them at once; and likewise it writes the token cache once, although
`PopulateTokenCache` (111-168) may write several entries. -/
def forS2AP (e : Env) (bytes : Option Bytes) : Prog :=
  .acquire <| .read fun s =>
    let (s', st, asked) := getBytesForS2A e s bytes
    .write (.cache s'.cache) <| .write (.first s'.first) <| .release <|
      .done (.forS2A bytes st asked)

/-- The assignments for a response with a result (s2a_proxy.cc:255-353), and the error, if any. -/
def resultAssigns (r : SessionResult) : List Assign × Option StatusCode :=
  match r.state with
  | none => ([.finished], some .invalidArgument)                                -- 258-264
  | some st =>
    let h := HsResult.fresh                                                     -- 265
    match tlsVersionFromProto st.tlsVersion with
    | .error c => ([.finished, .result h], some c)                              -- 268-282
    | .ok v =>
      let h1 := { h with tlsVersion := v }                                      -- 283
      match ciphersuiteFromProto st.ciphersuite with
      | .error c => ([.finished, .result h, .result h1], some c)                -- 286-299
      | .ok cs =>
        let h2 := { h1 with ciphersuite := cs }                                 -- 300
        let h3 := { h2 with inSecret := st.inKey }                              -- 302-305
        let h4 := { h3 with outSecret := st.outKey }                            -- 307-310
        let h5 := { h4 with inSequence := .ofNat st.inSequence }                -- 316
        let h6 := { h5 with outSequence := .ofNat st.outSequence }              -- 317
        let sofar : List Assign := [.finished, .result h, .result h1, .result h2, .result h3,
          .result h4, .result h5, .result h6]
        match r.localIdentity with
        | none => (sofar, some .internal)                                       -- 330-335
        | some li =>
          let h7 := { h6 with localIdentity := identityFromProto (some li) }    -- 336-337
          let h8 := { h7 with connectionId := .ofNat st.connectionId }          -- 338
          (sofar ++ [.result h7, .result h8, .context (some                     -- 341-352
               { applicationProtocol := r.applicationProtocol
                 tlsVersion := v
                 ciphersuite := cs
                 peerIdentity := identityFromProto r.peerIdentity
                 localIdentity := identityFromProto (some li)
                 peerCertFingerprint := r.peerCertFingerprint
                 localCertFingerprint := r.localCertFingerprint
                 isHandshakeResumed := st.isHandshakeResumed })], none)

/-- The assignments of `GetBytesForPeer` (s2a_proxy.cc:204-363), and what it returns.  It reads no
member. -/
def peerAssigns (dec : Bytes → Option SessionResp) (bytes : Option Bytes) : List Assign × Status :=
  if bytes.getD [] == [] then ([], .fail .failedPrecondition)                   -- 206-211
  else match dec (bytes.getD []) with
    | none => ([], .fail .internal)                                             -- 221-226
    | some resp =>
      match resp.status with
      | none => ([], .fail .internal)
      | some status =>
        if status.code ≠ 0 then ([], .fail .internal)                           -- 229-243
        else
          let announced : List Assign := match resp.localIdentity with          -- 249-252
            | some i => [.selected (identityFromProto (some i))]
            | none => []
          match resp.result with
          | none => (announced, ⟨.ok, resp.bytesConsumed, some resp.outFrames⟩)
          | some r =>
            match resultAssigns r with
            | (as, some c) => (announced ++ as, .fail c)
            | (as, none) => (announced ++ as, ⟨.ok, resp.bytesConsumed, some resp.outFrames⟩)

/-- `GetBytesForPeer` (s2a_proxy.cc:204-363). -/
def forPeerP (dec : Bytes → Option SessionResp) (bytes : Option Bytes) : Prog :=
  .acquire <| .writes (peerAssigns dec bytes).1 <| .release <|
    .done (.forPeer (response dec bytes) (peerAssigns dec bytes).2)

/-- `IsHandshakeFinished` (s2a_proxy.cc:767-770), and what is done with the answer. -/
def askFinished (k : Bool → Prog) : Prog :=
  .acquire <| .read fun s => .release (k (isHandshakeFinished s))

/-- Members of `*result_` are read one after the other, each through the pointer; `acc` is what was
read so far. [src/handshaker/s2a_proxy.cc:792-800] -/
def readResult (k : HsResult → Prog) : List (HsResult → HsResult → HsResult) → HsResult → Prog
  | [], acc => k acc
  | f :: fs, acc => .read fun s =>
    match s.result with
    | none => .ub .nullDeref
    | some r => readResult k fs (f acc r)

/-- The members, in the order in which they are read (s2a_proxy.cc:792-800). -/
def resultMembers : List (HsResult → HsResult → HsResult) :=
  [fun a r => { a with tlsVersion := r.tlsVersion },
   fun a r => { a with ciphersuite := r.ciphersuite },
   fun a r => { a with inSecret := r.inSecret },
   fun a r => { a with outSecret := r.outSecret },
   fun a r => { a with inSequence := r.inSequence },
   fun a r => { a with outSequence := r.outSequence },
   fun a r => { a with localIdentity := r.localIdentity },
   fun a r => { a with connectionId := r.connectionId }]

/-- `S2AFrameProtector::Create` with what was read (s2a_proxy.cc:806). -/
def createEnd (L : Lib) (fIn fOut : KeyFault) (o : Frame.Options) : Prog :=
  match Frame.create L fIn fOut o with
  | .ok p => .done (.createFrameProtector p)
  | .error e => .ub e

/-- The channel factory is moved out of the proxy: read, and then null
(s2a_proxy.cc:801). -/
def moveFactory (L : Lib) (fIn fOut : KeyFault) (r : HsResult) : Prog :=
  .read fun s => .write .noFactory (createEnd L fIn fOut (frameOptions s r))

/-- `CreateFrameProtector` (s2a_proxy.cc:784-807).  (The address is a member of `options_`, which is
not changed.) -/
def createP (L : Lib) (fIn fOut : KeyFault) : Prog :=
  askFinished fun b =>
    if b then readResult (moveFactory L fIn fOut) resultMembers HsResult.fresh
    else .done (.createFrameProtector (.error .failedPrecondition))

/-- `GetS2AContext` (s2a_proxy.cc:809-816): the context is moved out of the proxy: read, and then
null. -/
def getContextP : Prog :=
  askFinished fun b =>
    if b then .read fun s => .write (.context none) (.done (.getContext (.ok s.context)))
    else .done (.getContext (.error .failedPrecondition))

/-- The program of a call (include/s2a_proxy.h:63-90). -/
def Op.prog (L : Lib) : Op → Prog
  | .forS2A e bytes => forS2AP e bytes
  | .forPeer dec bytes => forPeerP dec bytes
  | .isFinished => askFinished fun b => .done (.isFinished b)
  | .createFrameProtector fIn fOut => createP L fIn fOut
  | .getContext => getContextP

/-! ### Threads -/

/-- Where a thread is: before its `n`-th call, or inside of it. [the user of include/s2a_proxy.h] -/
inductive Where
  | idle (n : Nat)
  | inside (n : Nat) (p : Prog)

/-- What can be seen from outside: the `n`-th call of thread `t` begins, and returns.
[observation; no counterpart in the code] -/
inductive Obs (T : Type)
  | invoked (call : T × Nat)
  | returned (call : T × Nat) (ev : Event)

/-- A state of threads that use one proxy.  `log` is an observation: the calls and returns.
[the user of include/s2a_proxy.h] -/
structure Threads (T : Type) where
  shared : State
  holder : Option T
  place : T → Where
  log : List (Obs T)

/-- All threads begin. [the user of include/s2a_proxy.h] -/
def Threads.init {T : Type} (s : State) : Threads T := ⟨s, none, fun _ => .idle 0, []⟩

/-- Thread `t` is now at another place. [no counterpart in the code] -/
def moved {T : Type} [DecidableEq T] (place : T → Where) (t : T) (w : Where) : T → Where :=
  fun x => if x = t then w else place x

variable {T : Type} [DecidableEq T]

/-- Thread `t` takes a step, if it can: `calls t` are the calls it makes, one after the other.
[the user of include/s2a_proxy.h; absl::Mutex] -/
def Threads.exec (L : Lib) (calls : T → List Op) (c : Threads T) (t : T) : Exec (Threads T) :=
  let go (n : Nat) (p : Prog) := moved c.place t (.inside n p)
  match c.place t with
  | .idle n =>
    match (calls t)[n]? with
    | none => .ok c
    | some op => .ok { c with place := go n (op.prog L), log := c.log ++ [.invoked (t, n)] }
  | .inside n (.done ev) =>
    .ok { c with place := moved c.place t (.idle (n + 1)), log := c.log ++ [.returned (t, n) ev] }
  | .inside _ (.ub e) => .error e
  | .inside n (.acquire k) =>
    match c.holder with
    | some _ => .ok c
    | none => .ok { c with place := go n k, holder := some t }
  | .inside n (.release k) => .ok { c with place := go n k, holder := none }
  | .inside n (.read k) => .ok { c with place := go n (k c.shared) }
  | .inside n (.write a k) => .ok { c with place := go n k, shared := a.apply c.shared }

/-- A schedule: which thread takes the next step. [the user of include/s2a_proxy.h] -/
def Threads.run (L : Lib) (calls : T → List Op) : Threads T → List T → Exec (Threads T)
  | c, [] => .ok c
  | c, t :: ts => do
    let c ← c.exec L calls t
    run L calls c ts

end S2A.Proxy
