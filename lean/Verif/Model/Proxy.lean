import Verif.Model.Context
import Verif.Model.Frame
/-
include/s2a_proxy.h, src/handshaker/s2a_proxy.cc
-/
namespace S2A.Proxy
open S2A.Proto S2A.Util

/-- `S2AHandshakeResult` (include/s2a_proxy.h:132-142). -/
structure HsResult where
  tlsVersion : TlsVersion
  ciphersuite : Ciphersuite
  inSecret : Bytes
  outSecret : Bytes
  inSequence : UInt64
  outSequence : UInt64
  connectionId : UInt64
  localIdentity : Identity
  deriving DecidableEq, Repr

/-- `make_unique<S2AHandshakeResult>()` value-initialises: the members are zero, that is the
first enumerators, but for the identity, which has an initialiser.
[src/handshaker/s2a_proxy.cc:265] -/
def HsResult.fresh : HsResult := ⟨.tls1_2, .aes128GcmSha256, [], [], 0, 0, 0, .empty⟩

/-- State of `S2AProxy` (include/s2a_proxy.h:116-148).  The logger and the channel options are
not modelled; of the channel factory and the token manager only whether they are there.  The
token cache is a list of its entries; the order of iteration is not the one of this list (see
`Env`).  The mutex is not modelled: a method is one step. -/
structure State where
  isClient : Bool
  applicationProtocol : Bytes
  targetHostname : Bytes
  options : TlsOptions
  hasFactory : Bool
  hasTokenManager : Bool
  cache : List (Identity × Bytes)
  selected : Option Identity
  first : Bool
  finished : Bool
  context : Option Context
  result : Option HsResult
  deriving DecidableEq, Repr

/-- `S2AProxyOptions` (include/s2a_proxy.h:50-61). -/
structure Options where
  hasLogger : Bool
  isClient : Bool
  applicationProtocol : Bytes
  targetHostname : Bytes
  options : Option TlsOptions
  hasFactory : Bool
  hasTokenManager : Bool

/-- `S2AProxy::Create` (s2a_proxy.cc:52-61) and the constructor (63-80). -/
def create (o : Options) : Option State :=
  match o.hasLogger, o.options with
  | false, _ => none
  | _, none => none
  | true, some opts =>
    some { isClient := o.isClient, applicationProtocol := o.applicationProtocol,
           targetHostname := o.targetHostname, options := opts, hasFactory := o.hasFactory,
           hasTokenManager := o.hasTokenManager, cache := [], selected := none, first := true,
           finished := false, context := none, result := none }

/-- A question to the token manager: `GetToken` of an identity, or `GetDefaultToken`.
[include/access_token_manager.h:35-55] -/
abbrev Question := Option Identity

/-- What a call of `GetBytesForS2A` meets outside the proxy: the answers of the token manager
(to the `n`-th question of the call), the order of iteration over a `flat_hash_set` and a
`flat_hash_map`, and whether the protobuf library fails to serialise.
[src/handshaker/s2a_proxy.cc:111-202] -/
structure Env where
  answer : Nat → Question → Except StatusCode Bytes
  orderIds : List Identity → List Identity
  orderTokens : List (Identity × Bytes) → List (Identity × Bytes)
  orderIds_perm : ∀ l, (orderIds l).Perm l
  orderTokens_perm : ∀ l, (orderTokens l).Perm l
  serializeFails : Bool

/-- The questions asked in a call, with their answers. [src/handshaker/s2a_proxy.cc:111-168] -/
abbrev Asked := List (Question × Except StatusCode Bytes)

/-- `token_cache_[i] = t`. [src/handshaker/s2a_proxy.cc:132, 153, 165] -/
def cacheSet (c : List (Identity × Bytes)) (i : Identity) (t : Bytes) : List (Identity × Bytes) :=
  if c.any (·.1 == i) then c.map fun e => if e.1 = i then (i, t) else e else c ++ [(i, t)]

/-- `token_cache_.contains(i)`. [src/handshaker/s2a_proxy.cc:122, 145] -/
def cacheHas (c : List (Identity × Bytes)) (i : Identity) : Bool := c.any (·.1 == i)

/-- The loop over the local identities in `PopulateTokenCache` (s2a_proxy.cc:142-154).  `n` is
the number of questions asked before. -/
def fetchLoop (e : Env) : (ids : List Identity) → (n : Nat) → (cache : List (Identity × Bytes)) →
    List (Identity × Bytes) × Asked
  | [], _, cache => (cache, [])
  | i :: ids, n, cache =>
    if cacheHas cache i then fetchLoop e ids n cache
    else
      let a := e.answer n (some i)
      let cache := match a with
        | .ok t => cacheSet cache i t
        | .error _ => cache
      let (cache, asked) := fetchLoop e ids (n + 1) cache
      (cache, (some i, a) :: asked)

/-- The second half of `PopulateTokenCache` (s2a_proxy.cc:142-167). -/
def fetchAll (e : Env) (s : State) (n : Nat) : State × Asked :=
  let (cache, asked) := fetchLoop e (e.orderIds s.options.locals) n s.cache
  if s.options.locals.isEmpty then
    let a := e.answer (n + asked.length) none
    let cache := match a with
      | .ok t => cacheSet cache .empty t
      | .error _ => cache
    ({ s with cache := cache }, asked ++ [(none, a)])
  else ({ s with cache := cache }, asked)

/-- `PopulateTokenCache` (s2a_proxy.cc:111-168), with the questions asked. -/
def populate (e : Env) (s : State) : State × Asked :=
  if !s.hasTokenManager then (s, [])
  else match s.selected with
    | some i =>
      if cacheHas s.cache i && s.cache.length == 1 then (s, [])
      else
        match e.answer 0 (some i) with
        | .ok t => ({ s with cache := [(i, t)] }, [(some i, .ok t)])
        | .error c =>
          let (s, asked) := fetchAll e s 1
          (s, (some i, .error c) :: asked)
    | none => fetchAll e s 0

/-- `ProxyStatus` (include/s2a_proxy.h:44-48). -/
structure Status where
  code : StatusCode
  consumed : Nat
  buffer : Option Bytes
  deriving DecidableEq, Repr

/-- `{Status(code, …), 0, nullptr}`. [e.g. src/handshaker/s2a_proxy.cc:180-181] -/
def Status.fail (code : StatusCode) : Status := ⟨code, 0, none⟩

/-- The mechanism for one entry of the token cache (s2a_proxy.cc:496-528, 647-679, 716-748):
the identity is left out if it is the empty one. -/
def mechanism (entry : Identity × Bytes) : AuthMechanism :=
  ⟨identityToProto entry.1, some (cstr entry.2)⟩

/-- Attaching the tokens and serialising (s2a_proxy.cc:490-545, 641-696, 711-765). -/
def finishRequest (e : Env) (s : State) (kind : ReqKind) : State × Status × Asked :=
  let (s, asked) := populate e s
  if e.serializeFails then (s, .fail .internal, asked)
  else
    let req : SessionReq := ⟨kind, (e.orderTokens s.cache).map mechanism⟩
    (s, ⟨.ok, 0, some req.serialize⟩, asked)

/-- Converting identities one after the other, failing at the first that has no wire form
(s2a_proxy.cc:429-453, 611-636). -/
def convertIds (ids : List Identity) : Except StatusCode (List PIdentity) :=
  ids.mapM fun i => match identityToProto i with
    | some p => .ok p
    | none => .error .failedPrecondition

/-- The part of the client start request taken from the options (s2a_proxy.cc:366-488). -/
def clientStart (e : Env) (s : State) : Except StatusCode ClientStart := do
  let minV ← tlsVersionToProto s.options.minTlsVersion
  let maxV ← tlsVersionToProto s.options.maxTlsVersion
  let cs ← s.options.ciphersuites.mapM ciphersuiteToProto
  let targets ← convertIds (e.orderIds s.options.targets)
  if s.options.locals.length > 1 then .error .failedPrecondition
  else
    let li ← convertIds s.options.locals
    .ok { applicationProtocols := [cstr s.applicationProtocol]
          minTlsVersion := minV
          maxTlsVersion := maxV
          ciphersuites := cs
          targetIdentities := targets
          localIdentity := li.head?
          targetName := cstr s.targetHostname }

/-- `GetClientStart` (s2a_proxy.cc:365-545). -/
def getClientStart (e : Env) (s : State) : State × Status × Asked :=
  match clientStart e s with
  | .error c => (s, .fail c, [])
  | .ok m => finishRequest e s (.clientStart m)

/-- The part of the server start request taken from the options and the bytes from the peer
(s2a_proxy.cc:548-638). -/
def serverStart (e : Env) (s : State) (bytes : Option Bytes) : Except StatusCode ServerStart := do
  let minV ← tlsVersionToProto s.options.minTlsVersion
  let maxV ← tlsVersionToProto s.options.maxTlsVersion
  let cs ← s.options.ciphersuites.mapM ciphersuiteToProto
  let locals ← convertIds (e.orderIds s.options.locals)
  .ok { applicationProtocols := [cstr s.applicationProtocol]
        minTlsVersion := minV
        maxTlsVersion := maxV
        ciphersuites := cs
        localIdentities := locals
        inBytes := bytes.getD [] }

/-- `GetServerStart` (s2a_proxy.cc:547-696). -/
def getServerStart (e : Env) (s : State) (bytes : Option Bytes) : State × Status × Asked :=
  match serverStart e s bytes with
  | .error c => (s, .fail c, [])
  | .ok m => finishRequest e s (.serverStart m)

/-- `GetNext` (s2a_proxy.cc:698-765). -/
def getNext (e : Env) (s : State) (bytes : Option Bytes) : State × Status × Asked :=
  finishRequest e s (.next ⟨bytes.getD []⟩)

/-- `GetBytesForS2A` (s2a_proxy.cc:170-202); `none` is the null pointer. -/
def getBytesForS2A (e : Env) (s : State) (bytes : Option Bytes) : State × Status × Asked :=
  if s.first then
    if s.isClient && (bytes.getD []) != [] then (s, .fail .failedPrecondition, [])
    else
      let (s, st, asked) := if s.isClient then getClientStart e s else getServerStart e s bytes
      (if st.code = .ok then { s with first := false } else s, st, asked)
  else if bytes.getD [] == [] then (s, .fail .failedPrecondition, [])
  else getNext e s bytes

/-- The part of `GetBytesForPeer` for a response with a result (s2a_proxy.cc:258-353), on a
state in which `is_handshake_finished_` has been set: the state and the error, if any. -/
def handleResult (s : State) (r : SessionResult) : State × Option StatusCode :=
  match r.state with
  | none => (s, some .invalidArgument)
  | some st =>
    let s := { s with result := some HsResult.fresh }
    match tlsVersionFromProto st.tlsVersion with
    | .error c => (s, some c)
    | .ok v =>
      let s := { s with result := some { HsResult.fresh with tlsVersion := v } }
      match ciphersuiteFromProto st.ciphersuite with
      | .error c => (s, some c)
      | .ok cs =>
        let res : HsResult :=
          { HsResult.fresh with
            tlsVersion := v, ciphersuite := cs, inSecret := st.inKey, outSecret := st.outKey,
            inSequence := .ofNat st.inSequence, outSequence := .ofNat st.outSequence }
        match r.localIdentity with
        | none => ({ s with result := some res }, some .internal)
        | some li =>
          ({ s with
             result := some { res with
               localIdentity := identityFromProto (some li)
               connectionId := .ofNat st.connectionId }
             context := some
               { applicationProtocol := r.applicationProtocol
                 tlsVersion := v
                 ciphersuite := cs
                 peerIdentity := identityFromProto r.peerIdentity
                 localIdentity := identityFromProto (some li)
                 peerCertFingerprint := r.peerCertFingerprint
                 localCertFingerprint := r.localCertFingerprint
                 isHandshakeResumed := st.isHandshakeResumed } }, none)

/-- `GetBytesForPeer` (s2a_proxy.cc:204-363).  `dec` is the parser, `none` if it fails. -/
def getBytesForPeer (dec : Bytes → Option SessionResp) (s : State) (bytes : Option Bytes) :
    State × Status :=
  if bytes.getD [] == [] then (s, .fail .failedPrecondition)
  else match dec (bytes.getD []) with
    | none => (s, .fail .internal)
    | some resp =>
      match resp.status with
      | none => (s, .fail .internal)
      | some status =>
        if status.code ≠ 0 then (s, .fail .internal)
        else
          let s := match resp.localIdentity with
            | some i => { s with selected := some (identityFromProto (some i)) }
            | none => s
          match resp.result with
          | none => (s, ⟨.ok, resp.bytesConsumed, some resp.outFrames⟩)
          | some r =>
            match handleResult { s with finished := true } r with
            | (s, some c) => (s, .fail c)
            | (s, none) => (s, ⟨.ok, resp.bytesConsumed, some resp.outFrames⟩)

/-- `IsHandshakeFinished` (s2a_proxy.cc:767-770). -/
def isHandshakeFinished (s : State) : Bool := s.finished

/-- The options `CreateFrameProtector` passes on (s2a_proxy.cc:791-805). -/
def frameOptions (s : State) (r : HsResult) : Frame.Options :=
  { crypter :=
      { tlsVersion := r.tlsVersion, ciphersuite := r.ciphersuite, connectionId := r.connectionId
        url := s.options.s2aAddress, localIdentity := r.localIdentity, inSecret := r.inSecret
        outSecret := r.outSecret, inSequence := r.inSequence, outSequence := r.outSequence
        hasSender := true, hasFactory := s.hasFactory, hasLogger := true }
    hasAllocator := true
    hasDestroy := true }

/-- `CreateFrameProtector` (s2a_proxy.cc:784-807).  The channel factory is moved out of the
proxy. -/
def createFrameProtector (L : Lib) (fIn fOut : KeyFault) (s : State) :
    Exec (State × Except StatusCode Frame.State) :=
  if !s.finished then .ok (s, .error .failedPrecondition)
  else match s.result with
    | none => .error .nullDeref
    | some r => do
      let p ← Frame.create L fIn fOut (frameOptions s r)
      return ({ s with hasFactory := false }, p)

/-- `GetS2AContext` (s2a_proxy.cc:809-816); `ok none` is the
null pointer.  The context is moved out of the proxy. -/
def getS2AContext (s : State) : State × Except StatusCode (Option Context) :=
  if !s.finished then (s, .error .failedPrecondition)
  else ({ s with context := none }, .ok s.context)

/-! ### Histories -/

/-- A call on the proxy. [include/s2a_proxy.h:63-90] -/
inductive Op
  | forS2A (e : Env) (bytes : Option Bytes)
  | forPeer (dec : Bytes → Option SessionResp) (bytes : Option Bytes)
  | isFinished
  | createFrameProtector (fIn fOut : KeyFault)
  | getContext

/-- What was seen of a call: arguments, results, for `GetBytesForPeer` the response that was
parsed (if any), and for `GetBytesForS2A` the questions to the token manager.
[include/s2a_proxy.h:63-90] -/
inductive Event
  | forS2A (bytes : Option Bytes) (st : Status) (asked : Asked)
  | forPeer (resp : Option SessionResp) (st : Status)
  | isFinished (b : Bool)
  | createFrameProtector (p : Except StatusCode Frame.State)
  | getContext (c : Except StatusCode (Option Context))

/-- The response a call of `GetBytesForPeer` gets to see. [src/handshaker/s2a_proxy.cc:204-225] -/
def response (dec : Bytes → Option SessionResp) (bytes : Option Bytes) : Option SessionResp :=
  if bytes.getD [] == [] then none else dec (bytes.getD [])

/-- One call. [include/s2a_proxy.h:63-90] -/
def step (L : Lib) (s : State) : Op → Exec (State × Event)
  | .forS2A e bytes =>
    let (s, st, asked) := getBytesForS2A e s bytes
    .ok (s, .forS2A bytes st asked)
  | .forPeer dec bytes =>
    let (s, st) := getBytesForPeer dec s bytes
    .ok (s, .forPeer (response dec bytes) st)
  | .isFinished => .ok (s, .isFinished (isHandshakeFinished s))
  | .createFrameProtector fIn fOut => do
    let (s, p) ← createFrameProtector L fIn fOut s
    return (s, .createFrameProtector p)
  | .getContext =>
    let (s, c) := getS2AContext s
    .ok (s, .getContext c)

/-- A history of calls. [the user of include/s2a_proxy.h] -/
def run (L : Lib) (s : State) : List Op → Exec (State × List Event)
  | [] => .ok (s, [])
  | op :: ops => do
    let (s, ev) ← step L s op
    let (s, evs) ← run L s ops
    return (s, ev :: evs)

end S2A.Proxy
