import Verif.Model.TextContext
import Verif.Model.TicketSender
import Verif.Model.TokenManager
import Verif.Conform.Lib
/-
src/handshaker/s2a_util_test.cc, s2a_context_test.cc and s2a_proxy_test.cc,
src/options/s2a_options_test.cc, src/record_protocol/s2a_upb_ticket_sender_test.cc and
src/token_manager/single_token_access_token_manager_test.cc, replayed on the model.  These are
tests.  Not replayed: what the model leaves out (`DebugName`, null arenas, `ParseUpbStrview`, the
unimplemented `SendTicketsToS2A`).
-/
namespace S2A.Conform.HandshakerTest
open Proto Util

/-- The bytes of an ASCII text. -/
def b (s : String) : Bytes := s.toList.map fun c => UInt8.ofNat c.toNat

/-- Strings in the tests are ASCII. -/
def ascii (s : Bytes) : Bool := s.all fun x => decide (x < 128)

/-! ### s2a_util_test.cc -/

/-- `ConvertTlsVersionToProto` (lines 41-67). -/
example : [TlsVersion.tls1_2, .tls1_3, .other 3].map tlsVersionToProto =
    [.ok 0, .ok 1, .error .failedPrecondition] := by decide +kernel

/-- `ConvertCiphersuiteToProto` (lines 69-99). -/
example : [Ciphersuite.aes128GcmSha256, .aes256GcmSha384, .chacha20Poly1305Sha256, .other 4].map
      ciphersuiteToProto = [.ok 0, .ok 1, .ok 2, .error .failedPrecondition] := by decide +kernel

/-- `ConvertIdentityToProto…` (lines 111-150). -/
example : [Identity.fromSpiffeId (b "test_spiffe_id"), .fromHostname (b "test_hostname"),
      .fromUid (b "test_uid"), .empty].map identityToProto =
    [some (.spiffeId (b "test_spiffe_id")), some (.hostname (b "test_hostname")),
      some (.uid (b "test_uid")), none] := by decide +kernel

/-- `ConvertFromProtoToTlsVersion` (lines 152-177). -/
example : [0, 1, 3].map tlsVersionFromProto =
    [.ok .tls1_2, .ok .tls1_3, .error .failedPrecondition] := by decide +kernel

/-- `ConvertFromProtoToCiphersuite` (lines 179-209). -/
example : [0, 1, 2, 4].map ciphersuiteFromProto =
    [.ok .aes128GcmSha256, .ok .aes256GcmSha384, .ok .chacha20Poly1305Sha256,
      .error .failedPrecondition] := by decide +kernel

/-- `ConvertFromProtoToIdentity…` (lines 211-251). -/
example : [some (PIdentity.spiffeId (b "test_spiffe_id")), some (.hostname (b "test_hostname")),
      some (.uid (b "test_uid")), some .unset, none].map identityFromProto =
    [.fromSpiffeId (b "test_spiffe_id"), .fromHostname (b "test_hostname"),
      .fromUid (b "test_uid"), .empty, .empty] := by decide +kernel

/-! ### s2a_options_test.cc -/

/-- The options of `Create` and `CreateAndCopy` (lines 97-110, 120-133). -/
def someOptions : TlsOptions :=
  [.minTlsVersion .tls1_2, .maxTlsVersion .tls1_3, .s2aAddress (b "s2a_address"),
    .addCiphersuite .aes128GcmSha256, .addCiphersuite .aes256GcmSha384,
    .addCiphersuite .chacha20Poly1305Sha256, .addLocalSpiffeId (b "local_spiffe_id"),
    .addLocalHostname (b "local_hostname"), .addLocalUid (b "local_uid"),
    .addTargetSpiffeId (b "target_spiffe_id"), .addTargetHostname (b "target_hostname"),
    .addTargetUid (b "target_uid")].foldl TlsOptions.apply TlsOptions.default

/-- `Create` and `CreateAndCopy` (lines 97-143). -/
example : [someOptions, someOptions.copy].all (fun o =>
    o.minTlsVersion == .tls1_2 && o.maxTlsVersion == .tls1_3 &&
    o.s2aAddress == b "s2a_address" &&
    o.ciphersuites == [.aes128GcmSha256, .aes256GcmSha384, .chacha20Poly1305Sha256] &&
    o.locals == [⟨.spiffeId, b "local_spiffe_id"⟩, ⟨.hostname, b "local_hostname"⟩,
      ⟨.uid, b "local_uid"⟩] &&
    o.targets == [⟨.spiffeId, b "target_spiffe_id"⟩, ⟨.hostname, b "target_hostname"⟩,
      ⟨.uid, b "target_uid"⟩]) = true := by decide +kernel

/-! ### single_token_access_token_manager_test.cc -/

/-- `GetDefaultToken` and `GetToken` (lines 30-50), with the variable that the BUILD file
sets. -/
example :
    let m := TokenManager.Single.create (some (b "s2a_access_token_from_env_variable"))
    m.getDefaultToken = .ok (b "s2a_access_token_from_env_variable") ∧
      m.getToken .empty = .ok (b "s2a_access_token_from_env_variable") := by decide +kernel

/-! ### s2a_context_test.cc -/

/-- The context of the tests, with what is varied. -/
def context (v : TlsVersion) (c : Ciphersuite) (peer own : Identity) (resumed : Bool) : Context :=
  ⟨b "application_protocol", v, c, peer, own, b "peer_cert_fingerprint",
    b "local_cert_fingerprint", resumed⟩

def peer : Identity := .fromSpiffeId (b "peer_identity")
def own : Identity := .fromHostname (b "local_identity")

/-- What `CheckSerializedContext` reads back (lines 49-89). -/
def readBack (c : Context) : Except (StatusCode × String) (Option PContext) :=
  (c.serializeT false).map (PContext.parse ascii)

/-- `CheckSerializedContext` (lines 49-89). -/
def serialized (p l : Option PIdentity) (resumed : Bool) : PContext :=
  ⟨b "application_protocol", 1, 0, p, l, b "peer_cert_fingerprint", b "local_cert_fingerprint",
    resumed⟩

/-- `GetSerializedContext` (lines 109-170): success, resumed or not, and without one of the
identities. -/
example :
    let p := some (PIdentity.spiffeId (b "peer_identity"))
    let l := some (PIdentity.hostname (b "local_identity"))
    [context .tls1_3 .aes128GcmSha256 peer own true, context .tls1_3 .aes128GcmSha256 peer own false,
      context .tls1_3 .aes128GcmSha256 .empty own false,
      context .tls1_3 .aes128GcmSha256 peer .empty false].map readBack =
    [.ok (some (serialized p l true)), .ok (some (serialized p l false)),
      .ok (some (serialized none l false)), .ok (some (serialized p none false))] := by
  decide +kernel

/-- `GetSerializedContext`: the failures. -/
example : [context (.other 3) .aes128GcmSha256 peer own false,
      context .tls1_3 (.other 4) peer own false].map readBack =
    [.error (.failedPrecondition, "Unsupported TLS version."),
      .error (.failedPrecondition, "Unsupported ciphersuite.")] := by
  decide +kernel

/-- `GetS2AContextFromSerializedContextSuccess` (lines 172-203). -/
example :
    let c := context .tls1_3 .aes128GcmSha256 peer own true
    ((c.serializeT false).bind (Context.deserializeT ascii)) = .ok c := by decide +kernel

/-- `GetS2AContextFromSerializedContextFailure` (lines 205-213). -/
example : Context.deserializeT ascii (b "nonsense") =
    .error (.internal, "Unable to deserialize S2A context.") := by decide +kernel

/-! ### s2a_upb_ticket_sender_test.cc -/

def ticket1 : Bytes := [4, 0, 0, 1, 0]
def ticket2 : Bytes := [4, 0, 0, 1, 1]

/-- A request for tickets in a new message. -/
def ticketReq (i : Identity) (ts : Option (List Bytes)) : Bool × SessionReq :=
  TicketSender.prepare 1234 i ts ⟨.unset, []⟩

/-- `PrepareTicketSessionReqFailure` (lines 47-76). -/
example : (ticketReq .empty (some [ticket1])).1 = false ∧
    (ticketReq (.fromHostname (b "test_local_identity")) none).1 = false := by decide +kernel

/-- The three successful requests (lines 78-191). -/
example :
    ticketReq (.fromHostname (b "test_local_identity")) (some [ticket1]) =
      (true, ⟨.resumptionTicket ⟨[ticket1], 1234, some (.hostname (b "test_local_identity"))⟩, []⟩) ∧
    ticketReq (.fromSpiffeId (b "test_local_identity")) (some [ticket1, ticket2]) =
      (true, ⟨.resumptionTicket
        ⟨[ticket1, ticket2], 1234, some (.spiffeId (b "test_local_identity"))⟩, []⟩) ∧
    ticketReq (.fromUid (b "test_local_identity")) (some [ticket1, ticket2]) =
      (true, ⟨.resumptionTicket
        ⟨[ticket1, ticket2], 1234, some (.uid (b "test_local_identity"))⟩, []⟩) := by
  decide +kernel

/-! ### s2a_proxy_test.cc -/

/-- `CreateTestOptions` (lines 79-107). -/
def testOptions (isClient badSuite severalLocals withLocals : Bool) : TlsOptions :=
  let common : List TlsOptions.Setter :=
    [.s2aAddress (b "handshaker_service_address"), .addCiphersuite .aes128GcmSha256,
      .addCiphersuite .aes256GcmSha384, .addCiphersuite .chacha20Poly1305Sha256]
  let bad : List TlsOptions.Setter := if badSuite then [.addCiphersuite (.other 4)] else []
  let targets : List TlsOptions.Setter :=
    [.addTargetSpiffeId (b "target_spiffe_id"), .addTargetHostname (b "target_hostname"),
      .addTargetUid (b "target_uid")]
  let locals : List TlsOptions.Setter :=
    if isClient then
      .addLocalSpiffeId (b "client_local_spiffe_id") ::
        if severalLocals then
          [.addLocalHostname (b "client_local_hostname"), .addLocalUid (b "client_local_uid")]
        else []
    else [.addLocalSpiffeId (b "server_local_spiffe_id"),
      .addLocalHostname (b "server_local_hostname"), .addLocalUid (b "server_local_uid")]
  (common ++ bad ++ (if isClient then targets else []) ++
    (if withLocals then locals else [])).foldl TlsOptions.apply TlsOptions.default

/-- The `FakeAccessTokenManager`; the order of the sets is the reverse of that of insertion. -/
def env : Proxy.Env :=
  { answer := fun _ _ => .ok (b "fake_s2a_access_token"), orderIds := List.reverse
    orderTokens := List.reverse, orderIds_perm := List.reverse_perm
    orderTokens_perm := List.reverse_perm, serializeFails := false }

/-- The proxy of the tests. -/
def proxyOptions (isClient : Bool) (hostname : String) (o : Option TlsOptions) : Proxy.Options :=
  ⟨true, isClient, b "application_protocol", b hostname, o, false, true⟩

/-- What a call for the S2A shows: the status, what was logged, the request as the S2A reads
it. -/
abbrev Shown := (StatusCode × Said) × Option (Option SessionReq)

/-- Make a proxy and pass it bytes from the peer, one call after the other. -/
def asks (o : Proxy.Options) (inputs : List (Option Bytes)) : Option (List Shown) := do
  let s ← Proxy.create o
  return (inputs.foldl (fun (p : Proxy.State × List Shown) i =>
    let ((s, st, _), said) := Proxy.getBytesForS2AT (fun _ => "") env p.1 i
    (s, p.2 ++ [((st.code, said), st.buffer.map (SessionReq.parse ascii))])) (s, [])).2

/-- A failing call that logs the message of its status. -/
def failing (c : StatusCode) (m : String) : Shown := ((c, ⟨[m], m⟩), none)

/-- A successful call that logs nothing. -/
def succeeding (r : SessionReq) : Shown := ((.ok, ⟨[], ""⟩), some (some r))

/-- `Create` (lines 505-542). -/
example : (Proxy.create (proxyOptions true "hostname" none)).isSome = false ∧
    (Proxy.create (proxyOptions true "hostname" (testOptions true false false true))).isSome = true ∧
    (Proxy.create (proxyOptions false "hostname" (testOptions false false false true))).isSome = true := by
  refine ⟨?_, ?_, ?_⟩ <;> decide +kernel

/-- `CheckClientStart` (lines 109-219). -/
def clientStart (hostname : String) (locals : Option PIdentity) : SessionReq :=
  ⟨.clientStart ⟨[b "application_protocol"], 1, 1, [0, 1, 2],
      [.uid (b "target_uid"), .hostname (b "target_hostname"), .spiffeId (b "target_spiffe_id")],
      locals, b hostname⟩,
    [⟨locals, some (b "fake_s2a_access_token")⟩]⟩

/-- The local identity of a client. -/
def clientLocal : PIdentity := .spiffeId (b "client_local_spiffe_id")

/-- `GetClientStart` (lines 544-600). -/
example :
    asks (proxyOptions true "hostname" (testOptions true false false true)) [some [0]] =
      some [failing .failedPrecondition "Handshake has not begun, not expecting bytes."] ∧
    (asks (proxyOptions true "hostname" (testOptions true true false true)) [some []]).map
        (·.map fun x => ((x.1.1, x.1.2.message), x.1.2.log.isEmpty, x.2.isSome)) =
      some [((.failedPrecondition, "Unsupported ciphersuite."), false, false)] ∧
    asks (proxyOptions true "hostname" (testOptions true false true true)) [some []] =
      some [failing .failedPrecondition "Client should have at most 1 local identity."] ∧
    asks (proxyOptions true "hostname" (testOptions true false false true)) [some []] =
      some [succeeding (clientStart "hostname" (some clientLocal))] := by
  refine ⟨?_, ?_, ?_, ?_⟩ <;> decide +kernel

/-- `CheckServerStart` (lines 221-345). -/
def serverStart (input : Bytes) (locals : List PIdentity) : SessionReq :=
  ⟨.serverStart ⟨[b "application_protocol"], 1, 1, [0, 1, 2], locals, input⟩,
    if locals.isEmpty then [⟨none, some (b "fake_s2a_access_token")⟩]
    else locals.reverse.map fun i => ⟨some i, some (b "fake_s2a_access_token")⟩⟩

/-- The local identities of a server. -/
def serverLocals : List PIdentity :=
  [.uid (b "server_local_uid"), .hostname (b "server_local_hostname"),
    .spiffeId (b "server_local_spiffe_id")]

/-- `GetServerStart` (lines 602-652). -/
example :
    asks (proxyOptions false "" (testOptions false false false true)) [none] =
      some [succeeding (serverStart [] serverLocals)] ∧
    (asks (proxyOptions false "" (testOptions false true false true)) [some (b "in_bytes")]).map
        (·.map fun x => ((x.1.1, x.1.2.message), x.1.2.log.isEmpty, x.2.isSome)) =
      some [((.failedPrecondition, "Unsupported ciphersuite."), false, false)] ∧
    asks (proxyOptions false "" (testOptions false false false true)) [some (b "in_bytes")] =
      some [succeeding (serverStart (b "in_bytes") serverLocals)] := by
  refine ⟨?_, ?_, ?_⟩ <;> decide +kernel

/-- The next request. -/
def next (ms : List (Option PIdentity)) : SessionReq :=
  ⟨.next ⟨b "in_bytes"⟩, ms.map fun i => ⟨i, some (b "fake_s2a_access_token")⟩⟩

/-- `GetNext` (lines 654-704). -/
example :
    let o := proxyOptions true "" (testOptions true false false true)
    asks o [none, some []] = some [succeeding (clientStart "" (some clientLocal)),
      failing .failedPrecondition "Handshake requires bytes from peer."] ∧
    asks o [none, some (b "in_bytes")] =
      some [succeeding (clientStart "" (some clientLocal)), succeeding (next [some clientLocal])] := by
  refine ⟨?_, ?_⟩ <;> decide +kernel

/-- `CreateTestSerializedSessionResp` (lines 411-503). -/
def sessionResp (ok : Bool) (result : Option SessionResult) (local? : Option PIdentity) : Bytes :=
  SessionResp.serialize ⟨local?, b "out_bytes", 0, result,
    some (if ok then ⟨0, []⟩ else ⟨1, b "response_error_message"⟩)⟩

/-- The result in the response. -/
def sessionResult (badState badVersion badSuite withPeer withLocal : Bool) : SessionResult :=
  ⟨b "application_protocol",
    if badState then none else
      some ⟨if badVersion then 3 else 1, if badSuite then 4 else 0, 0, 0, List.replicate 32 0,
        List.replicate 32 0, 1234, false⟩,
    if withPeer then some (.spiffeId (b "server_local_spiffe_id")) else none,
    if withLocal then some (.hostname (b "client_local_hostname")) else none,
    b "local_cert_fingerprint", b "peer_cert_fingerprint"⟩

/-- A request, a response with or without a local identity, and the next request. -/
def startAndNext (isClient withRequest withResponse : Bool) : Option (List (StatusCode × Option (Option SessionReq))) := do
  let s ← Proxy.create (proxyOptions isClient "" (testOptions isClient false false withRequest))
  let ((s, st1, _), _) := Proxy.getBytesForS2AT (fun _ => "") env s none
  let own := if isClient then clientLocal else .spiffeId (b "server_local_spiffe_id")
  let ((s, st2), _) := Proxy.getBytesForPeerT (SessionResp.parse ascii) s
    (some (sessionResp true none (if withResponse then some own else none)))
  let ((_, st3, _), _) := Proxy.getBytesForS2AT (fun _ => "") env s (some (b "in_bytes"))
  if st2.code = .ok then
    return [(st1.code, st1.buffer.map (SessionReq.parse ascii)),
      (st3.code, st3.buffer.map (SessionReq.parse ascii))]
  else none

/-- A successful call; the test does not look at the log. -/
def succeeds (r : SessionReq) : StatusCode × Option (Option SessionReq) := (.ok, some (some r))

/-- `StartAndNext` (lines 706-786), on the client side. -/
example :
    startAndNext true true true = some [succeeds (clientStart "" (some clientLocal)),
      succeeds (next [some clientLocal])] ∧
    startAndNext true false true = some [succeeds (clientStart "" none),
      succeeds (next [some clientLocal])] ∧
    startAndNext true false false = some [succeeds (clientStart "" none),
      succeeds (next [none])] := by
  refine ⟨?_, ?_, ?_⟩ <;> decide +kernel

/-- `StartAndNext` (lines 706-786), on the server side. -/
example :
    startAndNext false true true = some [succeeds (serverStart [] serverLocals),
      succeeds (next [some (.spiffeId (b "server_local_spiffe_id"))])] ∧
    startAndNext false false true = some [succeeds (serverStart [] []),
      succeeds (next [some (.spiffeId (b "server_local_spiffe_id"))])] ∧
    startAndNext false false false = some [succeeds (serverStart [] []),
      succeeds (next [none])] := by
  refine ⟨?_, ?_, ?_⟩ <;> decide +kernel

/-- A response to a new client: the status, what was logged, the bytes for the peer, and the
proxy. -/
def answers (input : Option Bytes) : Option (((StatusCode × String × Bool) × Option Bytes) × Proxy.State) := do
  let s ← Proxy.create (proxyOptions true "" (testOptions true false false true))
  let ((s, st), said) := Proxy.getBytesForPeerT (SessionResp.parse ascii) s input
  return (((st.code, said.message, said.log.isEmpty), st.buffer), s)

/-- The same, with whether the handshake is finished. -/
def outcome (input : Option Bytes) : Option (((StatusCode × String × Bool) × Option Bytes) × Bool) :=
  (answers input).map fun x => (x.1, Proxy.isHandshakeFinished x.2)

/-- The local identity in the responses of the following tests (they are made for a server). -/
def serverLocal : Option PIdentity := some (.spiffeId (b "server_local_spiffe_id"))

/-- `GetBytesForPeerWithHandshakeNotFinished` (lines 788-839). -/
example :
    outcome none = some (((.failedPrecondition, "Need bytes from S2A.", false), none), false) ∧
    outcome (some (sessionResp false none serverLocal)) =
      some (((.internal, "Error from the S2A: response_error_message", false), none), false) ∧
    outcome (some (sessionResp true none serverLocal)) =
      some (((.ok, "", true), some (b "out_bytes")), false) := by
  refine ⟨?_, ?_, ?_⟩ <;> decide +kernel

/-- `GetBytesForPeerWithHandshakeFinished` (lines 841-925): the failures. -/
example :
    ([sessionResult true false false false false, sessionResult false true false false false,
      sessionResult false false true false false, sessionResult false false false false false].map
        fun r => (answers (some (sessionResp true (some r) serverLocal))).map (·.1)) =
    [some ((.invalidArgument, "|s2a_proto_SessionResult| is invalid.", false), none),
      some ((.failedPrecondition, "Unsupported TLS version.", false), none),
      some ((.failedPrecondition, "Unsupported ciphersuite.", false), none),
      some ((.internal, "No local identity set in |s2a_proto_SessionResult|.", false), none)] := by
  decide +kernel

/-- `GetBytesForPeerWithHandshakeFinished`: success, with the context (`CheckContext`, lines
385-409). -/
example : (answers (some (sessionResp true (some (sessionResult false false false true true))
      serverLocal))).map (fun x => (x.1, Proxy.isHandshakeFinished x.2,
        (Proxy.getS2AContext x.2).2)) =
    some (((.ok, "", true), some (b "out_bytes")), true,
      .ok (some ⟨b "application_protocol", .tls1_3, .aes128GcmSha256,
        .fromSpiffeId (b "server_local_spiffe_id"), .fromHostname (b "client_local_hostname"),
        b "peer_cert_fingerprint", b "local_cert_fingerprint", false⟩)) := by
  decide +kernel

/-- `GetBytesForPeerWithHandshakeFinished`: the frame protector is made. -/
example : ((answers (some (sessionResp true (some (sessionResult false false false true true))
      serverLocal))).map (fun x =>
        match Proxy.createFrameProtector Lib.std .none .none (Proxy.getS2AContext x.2).1 with
        | .ok (_, .ok _) => true
        | _ => false)) = some true := by
  decide +kernel

/-- `GetContextBeforeHandshakeIsFinished` and `CreateFrameProtectorBeforeHandshakeIsFinished`
(lines 927-976). -/
example :
    let s := (Proxy.create (proxyOptions true "" (testOptions true false false true)))
    s.map (fun s => (Proxy.isHandshakeFinished s, (Proxy.getS2AContextT s).1.2,
        (Proxy.getS2AContextT s).2.message,
        match Proxy.createFrameProtectorT Lib.std .none .none ⟨"", false⟩ ⟨"", false⟩ s with
        | .ok ((_, .error c), said) => some (c, said.message)
        | _ => none)) =
      some (false, .error .failedPrecondition, "Handshake is not finished.",
        some (.failedPrecondition, "Handshake is not finished.")) := by
  decide +kernel

end S2A.Conform.HandshakerTest
