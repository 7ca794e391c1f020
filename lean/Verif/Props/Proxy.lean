import Verif.Lemmas.ProtoMerge
import Verif.Lemmas.Proxy
import Verif.Props.Frame
/-
The handshake proxy: C42 to C50, C53 and C54.

`Reach L o s evs`: a proxy created with the options `o` is in state `s` after some history of
calls on it (with any arguments, any answers of the token manager, any order of iteration over
hash tables and any failures of the libraries) in which the events `evs` were seen
(Lemmas/Proxy.lean).
-/
namespace S2A.Proxy
open Proto Util
open Spec (latest asks carried announced requests request readRequest)

/-! ### A concrete proxy for the examples -/

namespace Demo

def opts : TlsOptions :=
  ⟨.tls1_3, .tls1_3, [1, 2], [.aes128GcmSha256, .chacha20Poly1305Sha256],
    [⟨.spiffeId, [112]⟩, ⟨.hostname, [104]⟩], [⟨.spiffeId, [108]⟩]⟩

/-- A client, with a token manager. -/
def client : Options := ⟨true, true, [103], [116], some opts, true, true⟩

/-- A server with two local identities. -/
def serverOpts : TlsOptions := { opts with locals := [⟨.spiffeId, [108]⟩, ⟨.uid, [109]⟩] }
def server : Options := ⟨true, false, [103], [], some serverOpts, true, true⟩

/-- A client that is not configured properly: two local identities. -/
def badClient : Options := { client with options := some serverOpts }

/-- The created proxy (any value if creation failed). -/
def made (o : Options) : State :=
  (create o).getD ⟨true, [], [], .default, false, false, [], none, true, false, none, none⟩

/-- Everything works; the token of an identity is its name and a 7. -/
def env : Env :=
  { answer := fun _ q => .ok ((q.getD .empty).value ++ [7]), orderIds := id, orderTokens := id
    orderIds_perm := fun _ => .refl _, orderTokens_perm := fun _ => .refl _
    serializeFails := false }

/-- The same, but the token manager refuses the `uid` identities. -/
def envRefusing : Env :=
  { env with answer := fun n q =>
      if (q.getD .empty).type = .uid then .error .notFound else env.answer n q }

/-- A session state for the toy connection of Props/Demo.lean. -/
def state : SessionState :=
  ⟨1, 0, 5, 9, List.replicate 32 1, List.replicate 32 2, 7, false⟩

def result : SessionResult :=
  ⟨[103], some state, some (.spiffeId [112]), some (.spiffeId [108]), [5], [6]⟩

/-- A response that brings frames for the peer and no result. -/
def frames : SessionResp := ⟨none, [1, 2, 3], 4, none, some ⟨0, []⟩⟩

/-- A response that announces the local identity. -/
def announce : SessionResp := { frames with localIdentity := some (.uid [109]) }

/-- A response with a result. -/
def done : SessionResp := { frames with result := some result }

/-- The S2A responds (the bytes and the parser do not matter). -/
def says (r : SessionResp) : Op := .forPeer (fun _ => some r) (some [0])

/-- What a history gives: the final state and the events. -/
def hist (o : Options) (ops : List Op) : State × List Event :=
  match run Lib.toy (made o) ops with
  | .ok x => x
  | .error _ => (made o, [])

/-- Whether a history ends normally. -/
def runs (o : Options) (ops : List Op) : Bool :=
  (create o).isSome && match run Lib.toy (made o) ops with
    | .ok _ => true
    | .error _ => false

theorem reach {o : Options} {ops : List Op} (h : runs o ops = true) :
    Reach Lib.toy o (hist o ops).1 (hist o ops).2 := by
  unfold runs at h
  rw [Bool.and_eq_true] at h
  obtain ⟨h1, h2⟩ := h
  obtain ⟨s0, hs⟩ := Option.isSome_iff_exists.1 h1
  refine ⟨s0, ops, hs, ?_⟩
  have : made o = s0 := by simp [made, hs]
  unfold hist
  rw [this] at h2 ⊢
  split at h2
  · rename_i x hx
    rw [hx]
  · cases h2

end Demo
open Demo

/-! ## C42: the first request starts the session, later ones continue it -/

theorem request_iff {ev : Event} {g out : Bytes} : request ev = some (g, out) ↔
    ∃ given n asked, ev = .forS2A given ⟨.ok, n, some out⟩ asked ∧ g = given.getD [] := by
  constructor
  · intro h
    unfold request at h
    split at h
    · rename_i given n out' asked
      simp only [Option.some.injEq, Prod.mk.injEq] at h
      obtain ⟨rfl, rfl⟩ := h
      exact ⟨given, n, asked, rfl, rfl⟩
    · cases h
  · rintro ⟨given, n, asked, rfl, rfl⟩
    rfl

/-- What one call of `GetBytesForS2A` does, by what was emitted before it. -/
theorem forS2A_cases {L : Lib} {o : Options} {s : State} {evs : List Event} (h : Reach L o s evs)
    (e : Env) (bytes : Option Bytes) :
    (∃ c, c ≠ .ok ∧ (getBytesForS2A e s bytes).2.1 = .fail c) ∨
    ∃ b, (getBytesForS2A e s bytes).2.1 = ⟨.ok, 0, some b⟩ ∧
      (b.length < 2 ^ 64 →
        if requests evs = [] then Spec.Starts o.isClient (bytes.getD []) b
        else Spec.Continues (bytes.getD []) b) := by
  rw [getBytesForS2A_eq]
  cases hp : plan e s bytes with
  | none => exact .inl ⟨_, by decide, rfl⟩
  | some k =>
    simp only []
    cases hf : e.serializeFails with
    | true => exact .inl ⟨.internal, by decide, rfl⟩
    | false =>
      refine .inr ⟨_, rfl, fun hl => ?_⟩
      have hr := read_reqOf hp hl
      have hi := h.inv
      unfold plan at hp
      by_cases hq : requests evs = []
      · rw [if_pos hq]
        rw [if_pos (hi.first.2 hq)] at hp
        refine ⟨_, hr, ?_⟩
        rw [hi.config.isClient] at hp
        cases hc : o.isClient with
        | true =>
          rw [hc] at hp
          simp only [if_true] at hp ⊢
          by_cases hb : bytes.getD [] = []
          · rw [if_neg (by simpa using hb)] at hp
            obtain ⟨m, _, rfl⟩ := Option.map_eq_some_iff.1 hp
            exact ⟨hb, m, rfl⟩
          · rw [if_pos hb] at hp; cases hp
        | false =>
          rw [hc] at hp
          simp only [if_neg Bool.false_ne_true] at hp ⊢
          obtain ⟨m, hm, rfl⟩ := Option.map_eq_some_iff.1 hp
          exact ⟨m, rfl, (serverOf_inv hm).2.2.2.2.2⟩
      · rw [if_neg hq]
        have : s.first ≠ true := fun hf => hq (hi.first.1 hf)
        rw [if_neg this] at hp
        by_cases hb : bytes.getD [] = []
        · rw [if_pos hb] at hp; cases hp
        · rw [if_neg hb] at hp
          cases hp
          exact ⟨hb, _, hr, rfl⟩

/-- In every history, the first request emitted by `GetBytesForS2A` starts a session on the
configured side (a server's start request carries exactly the bytes given, a client is given
none), and every later one continues it and carries exactly the bytes given, which are not
empty.  The length of a request must be below 2^64.

The property's last part, that requests are refused after the handshake has finished, is
false, see `C42_not_refused_after_finish`. -/
theorem C42_requests_in_order_partial (L : Lib) (o : Options) (s : State) (evs : List Event)
    (h : Reach L o s evs) (hl : ∀ g b, (g, b) ∈ requests evs → b.length < 2 ^ 64) :
    requests evs = [] ∨
    ∃ g b rest, requests evs = (g, b) :: rest ∧ Spec.Starts o.isClient g b ∧
      ∀ g' b', (g', b') ∈ rest → Spec.Continues g' b' := by
  have key : Reach L o s evs ∧ ((∀ g b, (g, b) ∈ requests evs → b.length < 2 ^ 64) →
      requests evs = [] ∨ ∃ g b rest, requests evs = (g, b) :: rest ∧
        Spec.Starts o.isClient g b ∧ ∀ g' b', (g', b') ∈ rest → Spec.Continues g' b') := by
    refine h.induction (P := fun s evs => Reach L o s evs ∧
      ((∀ g b, (g, b) ∈ requests evs → b.length < 2 ^ 64) →
      requests evs = [] ∨ ∃ g b rest, requests evs = (g, b) :: rest ∧
        Spec.Starts o.isClient g b ∧ ∀ g' b', (g', b') ∈ rest → Spec.Continues g' b'))
      (fun s hs => ⟨.start hs, fun _ => .inl rfl⟩) ?_
    rintro s evs op s' ev ⟨h1, ih⟩ hs
    refine ⟨h1.step hs, fun hl => ?_⟩
    cases hq : request ev with
    | none =>
      have e : requests (evs ++ [ev]) = requests evs := by simp [requests, hq]
      rw [e] at hl ⊢
      exact ih hl
    | some gb =>
      obtain ⟨g, b⟩ := gb
      have hreq : requests (evs ++ [ev]) = requests evs ++ [(g, b)] := by simp [requests, hq]
      rw [hreq] at hl ⊢
      have hlb : b.length < 2 ^ 64 := hl g b (by simp)
      have ih := ih (fun g b hm => hl g b (by simp [hm]))
      obtain ⟨given, n, asked, rfl, rfl⟩ := request_iff.1 hq
      cases op with
      | forPeer dec bytes => cases hs
      | isFinished => cases hs
      | createFrameProtector fIn fOut =>
        simp only [Proxy.step, HalfConn.exec_bind_eq_ok] at hs
        obtain ⟨⟨s1, p⟩, _, h2⟩ := hs
        cases h2
      | getContext => simp only [Proxy.step] at hs; cases hs
      | forS2A e bytes =>
        have hst : (getBytesForS2A e s bytes).2.1 = ⟨.ok, n, some b⟩ ∧ bytes = given := by
          simp only [Proxy.step, Except.ok.injEq, Prod.mk.injEq, Event.forS2A.injEq] at hs
          exact ⟨hs.2.2.1, hs.2.1⟩
        obtain ⟨hst, rfl⟩ := hst
        rcases forS2A_cases h1 e bytes with ⟨c, hc, hst'⟩ | ⟨b', hst', hb'⟩
        · rw [hst'] at hst
          simp only [Status.fail, Status.mk.injEq] at hst
          exact absurd hst.1 hc
        · rw [hst'] at hst
          simp only [Status.mk.injEq, Option.some.injEq, true_and] at hst
          obtain ⟨_, rfl⟩ := hst
          have hb' := hb' hlb
          rcases ih with ih | ⟨g0, b0, rest, i1, i2, i3⟩
          · rw [if_pos ih] at hb'
            rw [ih]
            exact .inr ⟨_, _, [], rfl, hb', by simp⟩
          · rw [i1] at hb' ⊢
            rw [if_neg (by simp)] at hb'
            refine .inr ⟨g0, b0, rest ++ [(bytes.getD [], b')], rfl, i2, ?_⟩
            intro g' b'' hm
            rcases List.mem_append.1 hm with hm | hm
            · exact i3 _ _ hm
            · simp only [List.mem_singleton, Prod.mk.injEq] at hm
              obtain ⟨rfl, rfl⟩ := hm
              exact hb'
  exact key.2 hl

/-- A call of `GetBytesForS2A` that does not succeed emits nothing. -/
theorem C42_failure_emits_nothing (e : Env) (s : State) (bytes : Option Bytes) :
    ((getBytesForS2A e s bytes).2.1.code = .ok ↔
      (getBytesForS2A e s bytes).2.1.buffer.isSome) ∧
    (getBytesForS2A e s bytes).2.1.consumed = 0 := by
  rw [getBytesForS2A_eq]
  cases plan e s bytes with
  | none => simp [Status.fail]
  | some k => cases e.serializeFails <;> simp [Status.fail]

/-- Witness: a server sends two requests; the reader sees a start and a continuation. -/
example : Reach Lib.toy server (hist server [.forS2A env (some [9]), says frames,
      .forS2A env (some [8])]).1 (hist server [.forS2A env (some [9]), says frames,
      .forS2A env (some [8])]).2 ∧
    (requests (hist server [.forS2A env (some [9]), says frames, .forS2A env (some [8])]).2).map
      (·.1) = [[9], [8]] ∧
    (requests (hist server [.forS2A env (some [9]), says frames, .forS2A env (some [8])]).2).all
      (fun x => x.2.length < 2 ^ 64 && (readRequest x.2).isSome) = true :=
  ⟨reach (by decide +kernel), by decide +kernel, by decide +kernel⟩

/-- The code does not refuse requests, nor responses, after the handshake has finished. -/
theorem C42_not_refused_after_finish :
    ∃ (o : Options) (s : State) (evs : List Event), Reach Lib.toy o s evs ∧
      isHandshakeFinished s = true ∧
      (∃ b, (getBytesForS2A env s (some [8])).2.1 = ⟨.ok, 0, some b⟩) ∧
      (getBytesForPeer (fun _ => some frames) s (some [0])).2 = ⟨.ok, 4, some [1, 2, 3]⟩ :=
  ⟨client, _, _, reach (ops := [.forS2A env none, says done]) (by decide +kernel),
    by decide +kernel, ⟨_, rfl⟩, by decide +kernel⟩

/-! ## C43, C48: start requests and the configuration -/

/-- The start request of a client: in every state before the first request, with a valid
configuration, `GetBytesForS2A` without bytes succeeds, and the S2A reads from the request
exactly the configured values, each string up to its first NUL byte; the target identities
are in some order, each as often as in the set, that is once. -/
theorem C43_client_start (L : Lib) (o : Options) (opts : TlsOptions) (s : State)
    (evs : List Event) (h : Reach L o s evs) (ho : o.options = some opts)
    (hc : o.isClient = true) (hq : requests evs = []) (hv : Spec.ValidClient opts) (e : Env)
    (he : e.serializeFails = false) :
    ∃ b, (getBytesForS2A e s none).2.1 = ⟨.ok, 0, some b⟩ ∧
      (b.length < 2 ^ 64 → ∃ m c, readRequest b = some m ∧ m.kind = .clientStart c ∧
        c.applicationProtocols = [Spec.cut o.applicationProtocol] ∧
        some c.minTlsVersion = Spec.wireTlsVersion opts.minTlsVersion ∧
        some c.maxTlsVersion = Spec.wireTlsVersion opts.maxTlsVersion ∧
        c.ciphersuites.map some = opts.ciphersuites.map Spec.wireCiphersuite ∧
        (c.targetIdentities.map some).Perm
          (opts.targets.map fun i => Spec.wireIdentity ⟨i.type, Spec.cut i.value⟩) ∧
        c.localIdentity.toList.map some =
          (opts.locals.map fun i => Spec.wireIdentity ⟨i.type, Spec.cut i.value⟩) ∧
        c.targetName = Spec.cut o.targetHostname) := by
  have hi := h.inv
  have hso : s.options = opts := by
    have := hi.config.options
    rw [ho] at this
    exact (Option.some.inj this).symm
  obtain ⟨m, hm⟩ := Option.isSome_iff_exists.1 ((clientOf_isSome e s).2 (hso ▸ hv))
  have hp : plan e s none = some (.clientStart m) := by
    unfold plan
    rw [if_pos (hi.first.2 hq), hi.config.isClient, hc, hm]
    rfl
  rw [getBytesForS2A_eq, hp]
  simp only [he]
  refine ⟨_, rfl, fun hl => ⟨_, m, read_reqOf hp hl, rfl, ?_⟩⟩
  obtain ⟨h1, h2, h3, h4, h5, ⟨ls, h6, h7⟩, h8, h9⟩ := clientOf_inv hm
  rw [hso] at h1 h2 h3 h4 h5 h6
  rw [hi.config.applicationProtocol] at h8
  rw [hi.config.targetHostname] at h9
  have eid : ∀ i, identityToProto i = Spec.wireIdentity ⟨i.type, Spec.cut i.value⟩ :=
    identityToProto_eq
  refine ⟨h8, h1.symm, h2.symm, h3, ?_, ?_, h9⟩
  · rw [h4]
    have := (e.orderIds_perm opts.targets).map identityToProto
    simpa only [funext eid] using this
  · rw [h7, ← funext eid, ← h6]
    have : ls.length ≤ 1 := by
      have := congrArg List.length h6
      simp only [List.length_map] at this
      omega
    match ls with
    | [] => rfl
    | [_] => rfl
    | _ :: _ :: _ => simp at this

/-- The start request of a server, likewise; it also carries exactly the bytes given. -/
theorem C43_server_start (L : Lib) (o : Options) (opts : TlsOptions) (s : State)
    (evs : List Event) (h : Reach L o s evs) (ho : o.options = some opts)
    (hc : o.isClient = false) (hq : requests evs = []) (hv : Spec.ValidCommon opts) (e : Env)
    (he : e.serializeFails = false) (bytes : Option Bytes) :
    ∃ b, (getBytesForS2A e s bytes).2.1 = ⟨.ok, 0, some b⟩ ∧
      (b.length < 2 ^ 64 → ∃ m c, readRequest b = some m ∧ m.kind = .serverStart c ∧
        c.applicationProtocols = [Spec.cut o.applicationProtocol] ∧
        some c.minTlsVersion = Spec.wireTlsVersion opts.minTlsVersion ∧
        some c.maxTlsVersion = Spec.wireTlsVersion opts.maxTlsVersion ∧
        c.ciphersuites.map some = opts.ciphersuites.map Spec.wireCiphersuite ∧
        (c.localIdentities.map some).Perm
          (opts.locals.map fun i => Spec.wireIdentity ⟨i.type, Spec.cut i.value⟩) ∧
        c.inBytes = bytes.getD []) := by
  have hi := h.inv
  have hso : s.options = opts := by
    have := hi.config.options
    rw [ho] at this
    exact (Option.some.inj this).symm
  obtain ⟨m, hm⟩ := Option.isSome_iff_exists.1 ((serverOf_isSome e s bytes).2 (hso ▸ hv))
  have hp : plan e s bytes = some (.serverStart m) := by
    unfold plan
    rw [if_pos (hi.first.2 hq), hi.config.isClient, hc, hm]
    rfl
  rw [getBytesForS2A_eq, hp]
  simp only [he]
  refine ⟨_, rfl, fun hl => ⟨_, m, read_reqOf hp hl, rfl, ?_⟩⟩
  obtain ⟨h1, h2, h3, h4, h8, h9⟩ := serverOf_inv hm
  rw [hso] at h1 h2 h3 h4
  rw [hi.config.applicationProtocol] at h8
  have eid : ∀ i, identityToProto i = Spec.wireIdentity ⟨i.type, Spec.cut i.value⟩ :=
    identityToProto_eq
  refine ⟨h8, h1.symm, h2.symm, h3, ?_, h9⟩
  rw [h4]
  have := (e.orderIds_perm opts.locals).map identityToProto
  simpa only [funext eid] using this

/-- A configuration without NUL bytes in its strings. -/
def NoNuls (o : Options) (opts : TlsOptions) : Prop :=
  Spec.NoNul o.applicationProtocol ∧ Spec.NoNul o.targetHostname ∧
  (∀ i ∈ opts.targets, Spec.NoNul i.value) ∧ ∀ i ∈ opts.locals, Spec.NoNul i.value

theorem map_cut {ids : List Identity} (h : ∀ i ∈ ids, Spec.NoNul i.value) :
    (ids.map fun i => Spec.wireIdentity ⟨i.type, Spec.cut i.value⟩) =
      ids.map Spec.wireIdentity := by
  refine List.map_congr_left fun i hi => ?_
  rw [cut_noNul (h i hi)]

/-- Without NUL bytes the request carries exactly the configured values.  Missing: strings
with NUL bytes, which are cut off (`C43_client_start`). -/
theorem C43_client_start_partial (L : Lib) (o : Options) (opts : TlsOptions) (s : State)
    (evs : List Event) (h : Reach L o s evs) (ho : o.options = some opts)
    (hc : o.isClient = true) (hq : requests evs = []) (hv : Spec.ValidClient opts)
    (hn : NoNuls o opts) (e : Env) (he : e.serializeFails = false) :
    ∃ b, (getBytesForS2A e s none).2.1 = ⟨.ok, 0, some b⟩ ∧
      (b.length < 2 ^ 64 → ∃ m c, readRequest b = some m ∧ m.kind = .clientStart c ∧
        c.applicationProtocols = [o.applicationProtocol] ∧
        some c.minTlsVersion = Spec.wireTlsVersion opts.minTlsVersion ∧
        some c.maxTlsVersion = Spec.wireTlsVersion opts.maxTlsVersion ∧
        c.ciphersuites.map some = opts.ciphersuites.map Spec.wireCiphersuite ∧
        (c.targetIdentities.map some).Perm (opts.targets.map Spec.wireIdentity) ∧
        c.localIdentity.toList.map some = opts.locals.map Spec.wireIdentity ∧
        c.targetName = o.targetHostname) := by
  obtain ⟨n1, n2, n3, n4⟩ := hn
  have := C43_client_start L o opts s evs h ho hc hq hv e he
  rwa [cut_noNul n1, cut_noNul n2, map_cut n3, map_cut n4] at this

/-- Likewise for a server. -/
theorem C43_server_start_partial (L : Lib) (o : Options) (opts : TlsOptions) (s : State)
    (evs : List Event) (h : Reach L o s evs) (ho : o.options = some opts)
    (hc : o.isClient = false) (hq : requests evs = []) (hv : Spec.ValidCommon opts)
    (hn : NoNuls o opts) (e : Env) (he : e.serializeFails = false) (bytes : Option Bytes) :
    ∃ b, (getBytesForS2A e s bytes).2.1 = ⟨.ok, 0, some b⟩ ∧
      (b.length < 2 ^ 64 → ∃ m c, readRequest b = some m ∧ m.kind = .serverStart c ∧
        c.applicationProtocols = [o.applicationProtocol] ∧
        some c.minTlsVersion = Spec.wireTlsVersion opts.minTlsVersion ∧
        some c.maxTlsVersion = Spec.wireTlsVersion opts.maxTlsVersion ∧
        c.ciphersuites.map some = opts.ciphersuites.map Spec.wireCiphersuite ∧
        (c.localIdentities.map some).Perm (opts.locals.map Spec.wireIdentity) ∧
        c.inBytes = bytes.getD []) := by
  obtain ⟨n1, n2, n3, n4⟩ := hn
  have := C43_server_start L o opts s evs h ho hc hq hv e he bytes
  rwa [cut_noNul n1, map_cut n4] at this

/-- Witness: both configurations are valid, have no NUL bytes, and nothing was sent yet. -/
example : Reach Lib.toy client (made client) [] ∧ Reach Lib.toy server (made server) [] ∧
    Spec.ValidClient opts ∧ Spec.ValidCommon serverOpts ∧ NoNuls client opts ∧
    NoNuls server serverOpts ∧ env.serializeFails = false ∧
    ∃ b m, (getBytesForS2A env (made client) none).2.1 = ⟨.ok, 0, some b⟩ ∧ b.length < 2 ^ 64 ∧
      readRequest b = some ⟨.clientStart m, [⟨some (.spiffeId [108]), some [108, 7]⟩]⟩ ∧
      m = ⟨[[103]], 1, 1, [0, 2], [.spiffeId [112], .hostname [104]], some (.spiffeId [108]),
        [116]⟩ :=
  ⟨.start rfl, .start rfl, ⟨⟨by decide, by decide, by decide, by decide⟩, by decide, by decide⟩,
    ⟨by decide, by decide, by decide, by decide⟩,
    ⟨by unfold Spec.NoNul; decide, by unfold Spec.NoNul; decide, by unfold Spec.NoNul; decide,
      by unfold Spec.NoNul; decide⟩,
    ⟨by unfold Spec.NoNul; decide, by unfold Spec.NoNul; decide, by unfold Spec.NoNul; decide,
      by unfold Spec.NoNul; decide⟩, rfl,
    ⟨_, ⟨[[103]], 1, 1, [0, 2], [.spiffeId [112], .hostname [104]], some (.spiffeId [108]),
        [116]⟩, rfl, by decide +kernel, by decide +kernel, rfl⟩⟩

/-- Configured strings are cut at a NUL byte: a client for the target host `a NUL b` asks the
S2A for a session with the host `a`. -/
theorem C43_nul_lost :
    ∃ (o : Options) (s : State) (b : Bytes) (m : SessionReq) (c : ClientStart),
      Reach Lib.toy o s [] ∧ (getBytesForS2A env s none).2.1 = ⟨.ok, 0, some b⟩ ∧
      readRequest b = some m ∧ m.kind = .clientStart c ∧
      o.targetHostname = [97, 0, 98] ∧ c.targetName = [97] :=
  ⟨{ client with targetHostname := [97, 0, 98] }, _, _,
    ⟨.clientStart ⟨[[103]], 1, 1, [0, 2], [.spiffeId [112], .hostname [104]],
      some (.spiffeId [108]), [97]⟩, [⟨some (.spiffeId [108]), some [108, 7]⟩]⟩, _,
    .start rfl, rfl, by decide +kernel, rfl, rfl, rfl⟩

/-- A client whose configuration is not valid (more than one local identity, or a value that
has no wire form): `GetBytesForS2A` fails before the first request, emits nothing, asks for no
token and leaves the proxy as it was. -/
theorem C48_invalid_client_fails (L : Lib) (o : Options) (opts : TlsOptions) (s : State)
    (evs : List Event) (h : Reach L o s evs) (ho : o.options = some opts)
    (hc : o.isClient = true) (hq : requests evs = []) (hv : ¬ Spec.ValidClient opts) (e : Env)
    (bytes : Option Bytes) :
    getBytesForS2A e s bytes = (s, ⟨.failedPrecondition, 0, none⟩, []) := by
  have hi := h.inv
  have hso : s.options = opts := by
    have := hi.config.options
    rw [ho] at this
    exact (Option.some.inj this).symm
  have hm : clientOf e s = none := by
    rw [← Option.not_isSome_iff_eq_none, clientOf_isSome, hso]
    exact hv
  have hp : plan e s bytes = none := by
    unfold plan
    rw [if_pos (hi.first.2 hq), hi.config.isClient, hc, hm]
    simp
  rw [getBytesForS2A_eq, hp]
  rfl

/-- Such a client never sends a request, in any history. -/
theorem C48_invalid_client_never_starts (L : Lib) (o : Options) (opts : TlsOptions) (s : State)
    (evs : List Event) (h : Reach L o s evs) (ho : o.options = some opts)
    (hc : o.isClient = true) (hv : ¬ Spec.ValidClient opts) : requests evs = [] := by
  have key : Reach L o s evs ∧ requests evs = [] := by
    refine h.induction (P := fun s evs => Reach L o s evs ∧ requests evs = [])
      (fun s hs => ⟨.start hs, rfl⟩) ?_
    rintro s evs op s' ev ⟨h1, ih⟩ hs
    refine ⟨h1.step hs, ?_⟩
    have : request ev = none := by
      cases op with
      | forS2A e bytes =>
        have := C48_invalid_client_fails L o opts s evs h1 ho hc ih hv e bytes
        simp only [Proxy.step, this] at hs
        cases hs
        rfl
      | forPeer dec bytes => cases hs; rfl
      | isFinished => cases hs; rfl
      | createFrameProtector fIn fOut =>
        simp only [Proxy.step, HalfConn.exec_bind_eq_ok] at hs
        obtain ⟨⟨s1, p⟩, _, h2⟩ := hs
        cases h2
        rfl
      | getContext => simp only [Proxy.step] at hs; cases hs; rfl
    simp [requests, this]
    simpa [requests] using ih
  exact key.2

/-- Witness: a client with two local identities. -/
example : Reach Lib.toy badClient (made badClient) [] ∧ ¬ Spec.ValidClient serverOpts ∧
    (getBytesForS2A env (made badClient) none).2.1 = ⟨.failedPrecondition, 0, none⟩ :=
  ⟨.start rfl, fun h => absurd h.oneLocal (by decide), by decide +kernel⟩

/-! ## C44, C45, C54: responses -/

/-- If the bytes from the S2A are missing, do not parse, or parse to a response without a
status or with another status than OK: `GetBytesForPeer` reports an error, emits nothing and
leaves the proxy exactly as it was.  For every parser, so also for one that fails. -/
theorem C44_failed_response (dec : Bytes → Option SessionResp) (s : State)
    (bytes : Option Bytes)
    (h : bytes.getD [] = [] ∨ dec (bytes.getD []) = none ∨
      ∃ resp, dec (bytes.getD []) = some resp ∧ ∀ st, resp.status = some st → st.code ≠ 0) :
    ∃ c, c ≠ .ok ∧ getBytesForPeer dec s bytes = (s, ⟨c, 0, none⟩) := by
  refine getBytesForPeer_bad fun resp hr => ?_
  unfold response at hr
  rintro ⟨st, h1, h2⟩
  split at hr
  · cases hr
  · rename_i hb
    rcases h with h | h | ⟨resp', h, h'⟩
    · simp [h] at hb
    · rw [h] at hr; cases hr
    · rw [h] at hr
      cases hr
      exact h' st h1 h2

/-- Witness: a response with a status other than OK and a result, and one without status. -/
example :
    (getBytesForPeer (fun _ => some { done with status := some ⟨3, []⟩ }) (made client) (some [0])) =
      (made client, ⟨.internal, 0, none⟩) ∧
    (getBytesForPeer (fun _ => some { done with status := none }) (made client) (some [0])) =
      (made client, ⟨.internal, 0, none⟩) := ⟨rfl, rfl⟩

/-- `IsHandshakeFinished` is true exactly if a response with status OK and a result has been
processed; in particular it never becomes false again (`C45_finished_stays`).

The property's last part, that no handshake messages are sent or accepted after that, is
false, see `C42_not_refused_after_finish`. -/
theorem C45_finished_iff_partial (L : Lib) (o : Options) (s : State) (evs : List Event)
    (h : Reach L o s evs) :
    isHandshakeFinished s = true ↔
      ∃ resp st, Event.forPeer (some resp) st ∈ evs ∧ Spec.Good resp ∧ resp.result.isSome := by
  unfold isHandshakeFinished
  rw [h.inv.finished]
  constructor
  · rintro ⟨ev, hm, hc⟩
    unfold carried at hc
    split at hc
    · rename_i resp st
      split at hc
      · rename_i x hx
        split at hc
        · rename_i hz
          exact ⟨resp, st, hm, ⟨x, hx, hz⟩, hc⟩
        · cases hc
      · cases hc
    · cases hc
  · rintro ⟨resp, st, hm, ⟨x, hx, hz⟩, hr⟩
    exact ⟨_, hm, by simp [carried, hx, hz, hr]⟩

/-- Once finished, always finished. -/
theorem C45_finished_stays (L : Lib) (o : Options) (s s' : State) (evs evs' : List Event)
    (ops : List Op) (h : Reach L o s evs) (hr : run L s ops = .ok (s', evs'))
    (hf : isHandshakeFinished s = true) : isHandshakeFinished s' = true := by
  obtain ⟨s0, ops0, h1, h2⟩ := h
  have h' : Reach L o s' (evs ++ evs') := ⟨s0, ops0 ++ ops, h1, run_append h2 hr⟩
  have h : Reach L o s evs := ⟨s0, ops0, h1, h2⟩
  rw [C45_finished_iff_partial L o _ _ h'] at *
  rw [C45_finished_iff_partial L o _ _ h] at hf
  obtain ⟨resp, st, hm, hg⟩ := hf
  exact ⟨resp, st, List.mem_append_left _ hm, hg⟩

/-- Witness: finished after a result, not before. -/
example : isHandshakeFinished (hist client [.forS2A env none, says frames]).1 = false ∧
    isHandshakeFinished (hist client [.forS2A env none, says frames, says done,
      .getContext]).1 = true ∧
    runs client [.forS2A env none, says frames, says done, .getContext] = true := by
  decide +kernel

/-- Exactly when the bytes for the peer are handed out: the response has status OK, and if it
carries a result then this is complete.  Then the bytes are exactly its `out_frames`, and the
number of bytes consumed is the one in the response.

Missing for the property: responses with another status than OK, whose `out_frames` are
dropped (`C54_out_frames_dropped`), and those with an incomplete result. -/
theorem C54_forwarded_verbatim_partial (dec : Bytes → Option SessionResp) (s : State)
    (bytes : Bytes) (hb : bytes ≠ []) (resp : SessionResp) (hd : dec bytes = some resp)
    (hg : Spec.Good resp)
    (hr : ∀ r, resp.result = some r → ∃ st li v cs, Spec.Complete r st li v cs) :
    (getBytesForPeer dec s (some bytes)).2 = ⟨.ok, resp.bytesConsumed, some resp.outFrames⟩ := by
  have h1 : response dec (some bytes) = some resp := by simp [response, hb, hd]
  rw [getBytesForPeer_good h1 hg]
  cases hrr : resp.result with
  | none => rfl
  | some r =>
    obtain ⟨st, li, v, cs, hc⟩ := hr r hrr
    simp only [handleResult_complete hc]

/-- Conversely, whatever is handed out for the peer are the `out_frames` of a parsed response
with status OK, whose result, if there is one, is complete. -/
theorem C54_nothing_else_forwarded (dec : Bytes → Option SessionResp) (s : State)
    (bytes : Option Bytes) (b : Bytes)
    (h : (getBytesForPeer dec s bytes).2.buffer = some b) :
    ∃ resp, dec (bytes.getD []) = some resp ∧ Spec.Good resp ∧ b = resp.outFrames ∧
      (getBytesForPeer dec s bytes).2 = ⟨.ok, resp.bytesConsumed, some b⟩ ∧
      ∀ r, resp.result = some r → ∃ st li v cs, Spec.Complete r st li v cs := by
  by_cases hb : ∀ resp, response dec bytes = some resp → ¬ Spec.Good resp
  · obtain ⟨c, _, he⟩ := getBytesForPeer_bad (s := s) hb
    rw [he] at h
    cases h
  · simp only [Classical.not_forall, Classical.not_not] at hb
    obtain ⟨resp, h1, h2⟩ := hb
    have hd : dec (bytes.getD []) = some resp := by
      unfold response at h1
      split at h1
      · cases h1
      · exact h1
    rw [getBytesForPeer_good h1 h2] at h ⊢
    refine ⟨resp, hd, h2, ?_⟩
    cases hr : resp.result with
    | none =>
      rw [hr] at h
      cases h
      exact ⟨rfl, rfl, by simp⟩
    | some r =>
      rw [hr] at h
      simp only at h ⊢
      have hok := handleResult_ok (s := { select s resp with finished := true }) (r := r)
      generalize handleResult { select s resp with finished := true } r = x at h hok ⊢
      obtain ⟨x1, x2⟩ := x
      cases x2 with
      | some c => cases h
      | none =>
        cases h
        refine ⟨rfl, rfl, ?_⟩
        intro r' hr'
        cases hr'
        exact hok rfl

/-- The same for a response on the wire, serialised by the S2A and parsed by the code. -/
theorem C54_on_the_wire (utf8 : Bytes → Bool) (s : State) (resp : SessionResp)
    (hl : resp.serialize.length < 2 ^ 64) (hok : resp.Ok utf8) (hg : Spec.Good resp)
    (hr : ∀ r, resp.result = some r → ∃ st li v cs, Spec.Complete r st li v cs) :
    (getBytesForPeer (SessionResp.parse utf8) s (some resp.serialize)).2 =
      ⟨.ok, resp.bytesConsumed, some resp.outFrames⟩ := by
  refine C54_forwarded_verbatim_partial _ s _ ?_ resp (SessionResp.parse_serialize utf8 resp hl hok)
    hg hr
  intro he
  obtain ⟨st, h1, h2⟩ := hg
  have := SessionResp.parse_serialize utf8 resp hl hok
  rw [he] at this
  have e : SessionResp.parse utf8 [] = some ⟨none, [], 0, none, none⟩ := rfl
  rw [e] at this
  cases this
  cases h1

/-- Witness: `done` is good, complete and can be serialised. -/
example : Spec.Good done ∧ Spec.Complete result state (.spiffeId [108]) .tls1_3 .aes128GcmSha256 ∧
    (getBytesForPeer (SessionResp.parse fun _ => true) (made client)
      (some done.serialize)).2 = ⟨.ok, 4, some [1, 2, 3]⟩ :=
  ⟨⟨_, rfl, rfl⟩, ⟨rfl, rfl, rfl, rfl⟩, by decide +kernel⟩

/-- Bytes the S2A may put into a message in addition: a field that the code does not know is
ignored; if `out_frames` or `bytes_consumed` occurs again, the last one counts. -/
theorem C54_extra_fields (utf8 : Bytes → Bool) (bs : Bytes) (resp : SessionResp)
    (h : SessionResp.parse utf8 bs = some resp) :
    (∀ i v, 5 < i → Wire.FieldOk (i, v) →
      SessionResp.parse utf8 (bs ++ Wire.encodeField (i, v)) = some resp) ∧
    (∀ out : Bytes, out.length < 2 ^ 64 →
      SessionResp.parse utf8 (bs ++ Wire.encodeField (2, .len out)) =
        some { resp with outFrames := out }) ∧
    (∀ n, n < 2 ^ 32 →
      SessionResp.parse utf8 (bs ++ Wire.encodeField (3, .varint n)) =
        some { resp with bytesConsumed := n }) := by
  unfold SessionResp.parse at h
  cases hd : Wire.decode bs with
  | none => rw [hd] at h; cases h
  | some fs =>
    rw [hd] at h
    simp only [Option.bind_eq_bind, Option.bind_some] at h
    have sub : ∀ {α : Type} (parse : Bytes → Option α) (i : Nat) (f : Wire.Field),
        (f.1 = i → f.2.asLen = none) → Wire.getSub parse i (fs ++ [f]) = Wire.getSub parse i fs := by
      intro α parse i f hne
      have : Wire.lens i (fs ++ [f]) = Wire.lens i fs := by
        rw [Wire.lens_append]
        by_cases hi : f.1 = i
        · simp [Wire.lens, hi, hne hi]
        · simp [Wire.lens, hi]
      unfold Wire.getSub
      rw [this]
    refine ⟨fun i v hi hf => ?_, fun out ho => ?_, fun n hn => ?_⟩
    · have e2 : Wire.getBytes 2 (fs ++ [(i, v)]) = Wire.getBytes 2 fs := by
        simp [Wire.getBytes, Wire.lens, show ¬ i = 2 by omega]
      have e3 : Wire.getU32 3 (fs ++ [(i, v)]) = Wire.getU32 3 fs := by
        simp [Wire.getU32, Wire.getU64, Wire.varints, show ¬ i = 3 by omega]
      unfold SessionResp.parse
      rw [Wire.decode_append hd hf]
      simp only [Option.bind_eq_bind, Option.bind_some]
      rw [sub _ 1 _ (fun hx => by simp only at hx; omega),
        sub _ 4 _ (fun hx => by simp only at hx; omega),
        sub _ 5 _ (fun hx => by simp only at hx; omega), e2, e3]
      exact h
    · have e2 : Wire.getBytes 2 (fs ++ [(2, .len out)]) = out := by
        simp [Wire.getBytes, Wire.lens, Wire.Val.asLen]
      have e3 : Wire.getU32 3 (fs ++ [(2, .len out)]) = Wire.getU32 3 fs := by
        simp [Wire.getU32, Wire.getU64, Wire.varints]
      unfold SessionResp.parse
      rw [Wire.decode_append hd ⟨by omega, by omega, ho⟩]
      simp only [Option.bind_eq_bind, Option.bind_some]
      rw [sub _ 1 _ (fun hx => by cases hx), sub _ 4 _ (fun hx => by cases hx),
        sub _ 5 _ (fun hx => by cases hx), e2, e3]
      simp only [Option.bind_eq_some_iff] at h ⊢
      obtain ⟨li, h1, r, h2, st, h3, h4⟩ := h
      cases h4
      exact ⟨li, h1, r, h2, st, h3, rfl⟩
    · have e2 : Wire.getBytes 2 (fs ++ [(3, .varint n)]) = Wire.getBytes 2 fs := by
        simp [Wire.getBytes, Wire.lens]
      have e3 : Wire.getU32 3 (fs ++ [(3, .varint n)]) = n := by
        simp [Wire.getU32, Wire.getU64, Wire.varints, Wire.Val.asVarint]
        omega
      unfold SessionResp.parse
      rw [Wire.decode_append hd ⟨by omega, by omega, by show n < 2 ^ 64; omega⟩]
      simp only [Option.bind_eq_bind, Option.bind_some]
      rw [sub _ 1 _ (fun hx => by cases hx), sub _ 4 _ (fun hx => by cases hx),
        sub _ 5 _ (fun hx => by cases hx), e2, e3]
      simp only [Option.bind_eq_some_iff] at h ⊢
      obtain ⟨li, h1, r, h2, st, h3, h4⟩ := h
      cases h4
      exact ⟨li, h1, r, h2, st, h3, rfl⟩

/-- Witness: `done` with other frames and a field number 9 at its end. -/
example : SessionResp.parse (fun _ => true) (done.serialize ++ Wire.encodeField (2, .len [7]) ++
    Wire.encodeField (9, .varint 300)) = some { done with outFrames := [7] } := by decide +kernel

/-- A status that occurs again is merged with the one before it: what the second one sets
counts, the rest is kept. -/
theorem C54_status_again (utf8 : Bytes → Bool) (bs : Bytes) (resp : SessionResp)
    (st st' : SessionStatus) (h : SessionResp.parse utf8 bs = some resp)
    (hs : resp.status = some st) (hl : st'.serialize.length < 2 ^ 64) (hc : st'.code < 2 ^ 32)
    (hu : utf8 st'.details = true) :
    SessionResp.parse utf8 (bs ++ Wire.encodeField (5, .len st'.serialize)) =
      some { resp with
        status := some ⟨if st'.code = 0 then st.code else st'.code,
          if st'.details = [] then st.details else st'.details⟩ } := by
  unfold SessionResp.parse at h
  cases hd : Wire.decode bs with
  | none => rw [hd] at h; cases h
  | some fs =>
    rw [hd] at h
    simp only [Option.bind_eq_bind, Option.bind_some, Option.bind_eq_some_iff] at h
    obtain ⟨li, h1, r, h2, st0, h3, h4⟩ := h
    cases h4
    simp only at hs
    subst hs
    have sub : ∀ {α : Type} (parse : Bytes → Option α) (i : Nat), i ≠ 5 →
        Wire.getSub parse i (fs ++ [(5, .len st'.serialize)]) = Wire.getSub parse i fs := by
      intro α parse i hi
      have : Wire.lens i (fs ++ [(5, .len st'.serialize)]) = Wire.lens i fs := by
        simp [Wire.lens, Ne.symm hi]
      unfold Wire.getSub
      rw [this]
    have e2 : Wire.getBytes 2 (fs ++ [(5, .len st'.serialize)]) = Wire.getBytes 2 fs := by
      simp [Wire.getBytes, Wire.lens]
    have e3 : Wire.getU32 3 (fs ++ [(5, .len st'.serialize)]) = Wire.getU32 3 fs := by
      simp [Wire.getU32, Wire.getU64, Wire.varints]
    unfold SessionResp.parse
    rw [Wire.decode_append hd ⟨by omega, by omega, hl⟩]
    simp only [Option.bind_eq_bind, Option.bind_some]
    rw [sub _ 1 (by decide), sub _ 4 (by decide), e2, e3,
      Wire.getSub_again _ 5 fs _ h3 (SessionStatus.parse_serialize utf8 st' hl hc hu)
        (fun q hq => SessionStatus.parse_append utf8 q st st' hq hl hc hu), h1, h2]
    rfl

/-- Witness: an error whose text follows in a second status. -/
example : SessionResp.parse (fun _ => true)
    (SessionResp.serialize { done with status := some (SessionStatus.mk 13 []) } ++
      Wire.encodeField (5, .len (SessionStatus.serialize ⟨0, [110, 111]⟩))) =
    some { done with status := some (SessionStatus.mk 13 [110, 111]) } := by decide +kernel

/-- The frames of a response with an error status, which the protocol says must be sent to the
peer (an alert, say), are dropped. -/
theorem C54_out_frames_dropped :
    ∃ (resp : SessionResp) (s : State) (st : Status), Reach Lib.toy client s [] ∧
      (getBytesForPeer (SessionResp.parse fun _ => true) s (some resp.serialize)).2 = st ∧
      (SessionResp.parse fun _ => true) resp.serialize = some resp ∧
      resp.outFrames = [21, 3, 3] ∧ st = ⟨.internal, 0, none⟩ :=
  ⟨{ frames with outFrames := [21, 3, 3], status := some ⟨13, []⟩ }, _, _, .start rfl,
    rfl, by decide +kernel, rfl, by decide +kernel⟩

/-! ## C46, C49, C50: the result -/

/-- Before any response with a result, `CreateFrameProtector` and `GetS2AContext` fail. -/
theorem C46_not_before_result (L : Lib) (o : Options) (s : State) (evs : List Event)
    (h : Reach L o s evs) (hn : ∀ ev ∈ evs, carried ev = none) (fIn fOut : KeyFault) :
    createFrameProtector L fIn fOut s = .ok (s, .error .failedPrecondition) ∧
    getS2AContext s = (s, .error .failedPrecondition) := by
  have hf : s.finished = false := by
    rw [← Bool.not_eq_true, h.inv.finished]
    rintro ⟨ev, hm, hc⟩
    rw [hn ev hm] at hc
    cases hc
  unfold createFrameProtector getS2AContext
  simp [hf]

/-- Until `CreateFrameProtector` is called the channel factory is there if one was given. -/
theorem factory_kept {L : Lib} {o : Options} {s : State} {evs : List Event}
    (h : Reach L o s evs) (hn : ∀ ev ∈ evs, ∀ p, ev ≠ .createFrameProtector p) :
    s.hasFactory = o.hasFactory := by
  refine h.induction (P := fun s evs => (∀ ev ∈ evs, ∀ p, ev ≠ .createFrameProtector p) →
    s.hasFactory = o.hasFactory) ?_ ?_ hn
  · intro s hs _
    unfold create at hs
    split at hs
    · cases hs
    · cases hs
    · cases hs; rfl
  · intro s evs op s' ev ih hs hn
    rw [← ih fun ev hm => hn ev (by simp [hm])]
    have hn := hn ev (by simp)
    cases op with
    | forS2A e bytes =>
      simp only [Proxy.step, Except.ok.injEq, Prod.mk.injEq] at hs
      obtain ⟨rfl, rfl⟩ := hs
      rw [getBytesForS2A_eq]
      cases plan e s bytes with
      | none => rfl
      | some k => simp only []; rw [populate_state]
    | forPeer dec bytes =>
      simp only [Proxy.step, Except.ok.injEq, Prod.mk.injEq] at hs
      obtain ⟨rfl, rfl⟩ := hs
      by_cases hb : ∀ resp, response dec bytes = some resp → ¬ Spec.Good resp
      · obtain ⟨c, _, he⟩ := getBytesForPeer_bad (s := s) hb
        rw [he]
      · simp only [Classical.not_forall, Classical.not_not] at hb
        obtain ⟨resp, h1, h2⟩ := hb
        obtain ⟨ctx, res, he⟩ := getBytesForPeer_frame dec s bytes resp h1 h2
        rw [he, select_frame]
    | isFinished => cases hs; rfl
    | createFrameProtector fIn fOut =>
      simp only [Proxy.step, HalfConn.exec_bind_eq_ok] at hs
      obtain ⟨⟨s1, p⟩, _, h2⟩ := hs
      cases h2
      exact absurd rfl (hn p)
    | getContext =>
      simp only [Proxy.step, getS2AContext] at hs
      split at hs <;> cases hs <;> rfl

/-- If the last result that the S2A sent is complete, `CreateFrameProtector` has no undefined
behaviour of its own: it does what `S2AFrameProtector::Create` does with exactly the TLS
version, ciphersuite, traffic secrets, sequence numbers, connection id and local identity of
that result and the configured S2A address.

Missing: histories in which the last result is not complete.  Then `GetBytesForPeer` reported
an error, but `CreateFrameProtector` may crash (`C46_crash_without_state`) or succeed
(`C46_created_without_identity`). -/
theorem C46_uses_result_partial (L : Lib) (o : Options) (opts : TlsOptions) (s : State)
    (pre post : List Event) (ev : Event) (r : SessionResult) (st : SessionState) (li : PIdentity)
    (v : TlsVersion) (cs : Ciphersuite) (h : Reach L o s (pre ++ ev :: post))
    (ho : o.options = some opts) (hr : carried ev = some r) (hc : Spec.Complete r st li v cs)
    (hp : ∀ ev ∈ post, carried ev = none) (fIn fOut : KeyFault) :
    ∃ factory, (factory = true → o.hasFactory = true) ∧
      ((∀ x ∈ pre ++ ev :: post, ∀ p, x ≠ .createFrameProtector p) → factory = o.hasFactory) ∧
      (createFrameProtector L fIn fOut s).map (·.2) =
        Frame.create L fIn fOut (Spec.protectorOptions opts.s2aAddress factory st li v cs) := by
  have hi := h.inv
  have hso : s.options = opts := by
    have := hi.config.options
    rw [ho] at this
    exact (Option.some.inj this).symm
  obtain ⟨s1, op, s2, ops, h1, h2, h3⟩ := h.split
  obtain ⟨a1, _, a3⟩ := step_complete h2 hr hc
  obtain ⟨b1, b2, _⟩ := run_keeps h3 hp
  refine ⟨s.hasFactory, hi.config.hasFactory, factory_kept h, ?_⟩
  unfold createFrameProtector
  rw [b2.trans a1, b1.trans a3]
  simp only [Bool.not_true, if_neg Bool.false_ne_true]
  have e : frameOptions s ⟨v, cs, st.inKey, st.outKey, .ofNat st.inSequence,
      .ofNat st.outSequence, .ofNat st.connectionId, Spec.identityOf (some li)⟩ =
      Spec.protectorOptions opts.s2aAddress s.hasFactory st li v cs := by
    unfold frameOptions Spec.protectorOptions
    rw [hso]
  rw [e]
  cases Frame.create L fIn fOut (Spec.protectorOptions opts.s2aAddress s.hasFactory st li v cs) <;>
    rfl

/-- The history of the witnesses: a full handshake. -/
def Demo.full : List Op := [.forS2A env none, says frames, .forS2A env (some [8]), says done]

/-- Witness: a full handshake, after which the frame protector is the one of Props/Demo.lean,
but for address and identity. -/
example : Reach Lib.toy client (hist client full).1 (hist client full).2 ∧
    (hist client full).2.filterMap carried = [result] ∧
    (hist client full).2.getLast?.bind carried = some result ∧
    Spec.Complete result state (.spiffeId [108]) .tls1_3 .aes128GcmSha256 ∧
    (match createFrameProtector Lib.toy .none .none (hist client full).1 with
      | .ok (_, .ok p) =>
        decide (p.conn.outC = Record.Demo.left.outC ∧ p.conn.inC = Record.Demo.left.inC)
      | _ => false) = true :=
  ⟨reach (by decide +kernel), by decide +kernel, by decide +kernel, ⟨rfl, rfl, rfl, rfl⟩,
    by decide +kernel⟩

/-- A response with a result without session state: `GetBytesForPeer` reports an error, but
the handshake counts as finished, and `CreateFrameProtector` dereferences the null pointer. -/
theorem C46_crash_without_state :
    ∃ (s : State) (evs : List Event), Reach Lib.toy client s evs ∧
      (∀ ev ∈ evs, ∀ r st, ev = .forPeer r st → st.code ≠ .ok) ∧
      createFrameProtector Lib.toy .none .none s = .error .nullDeref := by
  let r : SessionResp := { done with result := some { result with state := none } }
  refine ⟨_, _, reach (ops := [.forS2A env none, says r]) (by decide +kernel), ?_,
    by decide +kernel⟩
  intro ev hm a st he
  have : (hist client [.forS2A env none, says r]).2.all (fun ev => match ev with
      | .forPeer _ st => decide (st.code ≠ .ok)
      | _ => true) = true := by decide +kernel
  have := List.all_eq_true.1 this ev hm
  subst he
  simpa using this

/-- A response with a result without local identity: `GetBytesForPeer` reports an error, no
call of it ever succeeded, and yet `CreateFrameProtector` succeeds. -/
theorem C46_created_without_identity :
    ∃ (s s' : State) (evs : List Event) (p : Frame.State), Reach Lib.toy client s evs ∧
      (∀ ev ∈ evs, ∀ r st, ev = .forPeer r st → st.code ≠ .ok) ∧
      createFrameProtector Lib.toy .none .none s = .ok (s', .ok p) := by
  let r : SessionResp := { done with result := some { result with localIdentity := none } }
  refine ⟨_, _, _, _, reach (ops := [.forS2A env none, says r]) (by decide +kernel), ?_, rfl⟩
  intro ev hm a st he
  have : (hist client [.forS2A env none, says r]).2.all (fun ev => match ev with
      | .forPeer _ st => decide (st.code ≠ .ok)
      | _ => true) = true := by decide +kernel
  have := List.all_eq_true.1 this ev hm
  subst he
  simpa using this

/-- If the last result is complete, the first call of `GetS2AContext` after it returns exactly
the context it describes; all later ones return the null pointer, with status OK.  So the
property holds for the first call only. -/
theorem C50_context_once_partial (L : Lib) (o : Options) (s : State)
    (pre post : List Event) (ev : Event) (r : SessionResult) (st : SessionState) (li : PIdentity)
    (v : TlsVersion) (cs : Ciphersuite) (h : Reach L o s (pre ++ ev :: post))
    (hr : carried ev = some r) (hc : Spec.Complete r st li v cs)
    (hp : ∀ ev ∈ post, carried ev = none) :
    ((∀ ev ∈ post, ∀ c, ev ≠ .getContext c) →
      (getS2AContext s).2 = .ok (some (Spec.contextOf r st li v cs))) ∧
    ((∃ ev ∈ post, ∃ c, ev = .getContext c) → (getS2AContext s).2 = .ok none) := by
  obtain ⟨s1, op, s2, ops, h1, h2, h3⟩ := h.split
  obtain ⟨a1, a2, _⟩ := step_complete h2 hr hc
  obtain ⟨_, b2, b3, b4, _⟩ := run_keeps h3 hp
  have hf := b2.trans a1
  unfold getS2AContext
  simp only [hf, Bool.not_true, if_neg Bool.false_ne_true, Except.ok.injEq]
  exact ⟨fun hn => (b3 hn).trans a2, fun he => b4 a1 he⟩

/-- Witness: the first call returns the context, the second one the null pointer. -/
example :
    (getS2AContext (hist client full).1).2 =
      .ok (some ⟨[103], .tls1_3, .aes128GcmSha256, ⟨.spiffeId, [112]⟩, ⟨.spiffeId, [108]⟩,
        [6], [5], false⟩) ∧
    (getS2AContext (hist client (full ++ [.getContext])).1).2 = .ok none ∧
    runs client (full ++ [.getContext]) = true := by
  decide +kernel

/-- The identities reported are those of the result, whatever was announced or configured
before.  Missing for the property: that they agree with the announced and configured ones,
which is not enforced (`C49_not_enforced`). -/
theorem C49_identities_of_result_partial (L : Lib) (o : Options) (s : State)
    (pre post : List Event) (ev : Event) (r : SessionResult) (st : SessionState) (li : PIdentity)
    (v : TlsVersion) (cs : Ciphersuite) (h : Reach L o s (pre ++ ev :: post))
    (hr : carried ev = some r) (hc : Spec.Complete r st li v cs)
    (hp : ∀ ev ∈ post, carried ev = none) (hn : ∀ ev ∈ post, ∀ c, ev ≠ .getContext c) :
    ∃ ctx, (getS2AContext s).2 = .ok (some ctx) ∧
      ctx.localIdentity = Spec.identityOf r.localIdentity ∧
      ctx.peerIdentity = Spec.identityOf r.peerIdentity := by
  refine ⟨_, (C50_context_once_partial L o s pre post ev r st li v cs h hr hc hp).1 hn, ?_, rfl⟩
  rw [hc.localIdentity]
  rfl

/-- Neither of the two is enforced: the S2A announces one local identity and the result has
another, and its peer identity is not among the targets.  `GetBytesForPeer` accepts that. -/
theorem C49_not_enforced :
    ∃ (s : State) (evs : List Event) (ctx : Context), Reach Lib.toy client s evs ∧
      (getS2AContext s).2 = .ok (some ctx) ∧
      (∀ ev ∈ evs, ∀ r st, ev = .forPeer r st → st.code = .ok) ∧
      (evs.filterMap announced).getLast? = some ⟨.uid, [109]⟩ ∧
      ctx.localIdentity = ⟨.spiffeId, [108]⟩ ∧
      ctx.peerIdentity = ⟨.spiffeId, [120]⟩ ∧ ctx.peerIdentity ∉ opts.targets := by
  let r : SessionResp :=
    { done with result := some { result with peerIdentity := some (.spiffeId [120]) } }
  refine ⟨_, _, _, reach (ops := [.forS2A env none, says announce, says r]) (by decide +kernel),
    rfl, ?_, by decide +kernel, by decide +kernel, by decide +kernel, by decide +kernel⟩
  intro ev hm a st he
  have : (hist client [.forS2A env none, says announce, says r]).2.all (fun ev => match ev with
      | .forPeer _ st => decide (st.code = .ok)
      | _ => true) = true := by decide +kernel
  have := List.all_eq_true.1 this ev hm
  subst he
  simpa using this

/-! ## C47: tokens -/

/-- The mechanisms that a request must have for the given tokens. -/
def mechanismOf (entry : Identity × Bytes) : AuthMechanism :=
  ⟨Spec.wireIdentity ⟨entry.1.type, Spec.cut entry.1.value⟩, some (Spec.cut entry.2)⟩

/-- Every request carries mechanisms for different identities, each with the last token that
the token manager gave for that identity (up to a first NUL byte; the default token goes
without identity).  Without a token manager there are none.

While the S2A has not announced a local identity, there is a mechanism for every identity for
which a token was ever given, and every local identity without one was asked for in vain
during this very call. -/
theorem C47_tokens (L : Lib) (o : Options) (opts : TlsOptions) (s : State) (evs : List Event)
    (h : Reach L o s evs) (ho : o.options = some opts) (e : Env) (bytes : Option Bytes)
    (b : Bytes) (asked : Asked)
    (hb : (getBytesForS2A e s bytes).2 = (⟨.ok, 0, some b⟩, asked)) (hl : b.length < 2 ^ 64) :
    ∃ m entries, readRequest b = some m ∧ m.authMechanisms = entries.map mechanismOf ∧
      (entries.map (·.1)).Nodup ∧
      (∀ i t, (i, t) ∈ entries → latest (asks evs ++ asked) i = some t) ∧
      (o.hasTokenManager = false → entries = []) ∧
      ((∀ ev ∈ evs, announced ev = none) →
        (∀ i t, latest (asks evs ++ asked) i = some t → (i, t) ∈ entries) ∧
        (o.hasTokenManager = true → ∀ i ∈ opts.locals,
          (∃ t, (i, t) ∈ entries) ∨ ∃ c, (some i, .error c) ∈ asked)) := by
  have hi := h.inv
  have hso : s.options = opts := by
    have := hi.config.options
    rw [ho] at this
    exact (Option.some.inj this).symm
  rw [getBytesForS2A_eq] at hb
  cases hp : plan e s bytes with
  | none => rw [hp] at hb; simp [Status.fail] at hb
  | some k =>
    rw [hp] at hb
    simp only at hb
    cases hf : e.serializeFails with
    | true => rw [hf] at hb; simp [Status.fail] at hb
    | false =>
      simp only [hf, if_neg Bool.false_ne_true, Prod.mk.injEq, Status.mk.injEq,
        Option.some.injEq, true_and] at hb
      obtain ⟨rfl, rfl⟩ := hb
      have hperm := e.orderTokens_perm (populate e s).1.cache
      have hok := populate_ok e s (asks evs) hi.cache
      refine ⟨_, e.orderTokens (populate e s).1.cache, read_reqOf hp hl, ?_, ?_, ?_, ?_, ?_⟩
      · refine List.map_congr_left fun x _ => ?_
        simp only [mechanism, mechanismOf, identityToProto_eq, Identity.cut, cstr_eq_cut]
      · exact (hperm.map _).nodup_iff.2 hok.keys
      · intro i t hm
        exact hok.last i t (hperm.mem_iff.1 hm)
      · intro hm
        have hm' : s.hasTokenManager = false := hi.config.hasTokenManager.trans hm
        have := populate_none e s hm'
        have hc := hi.noTokens hm'
        rw [this, hc] at hperm ⊢
        exact hperm.eq_nil
      · intro hn
        have hsel : s.selected = none := by
          rw [hi.selected]
          have : evs.filterMap announced = [] := by
            rw [List.filterMap_eq_nil_iff]; exact hn
          rw [this]; rfl
        constructor
        · intro i t ht
          exact hperm.mem_iff.2 (populate_full e s (asks evs) hi.cache hsel (hi.full hn) i t ht)
        · intro hm i hil
          have hm' : s.hasTokenManager = true := hi.config.hasTokenManager.trans hm
          have e1 : populate e s = fetchAll e s 0 := by
            unfold populate
            rw [hm', hsel]
            rfl
          have := (fetchAll_ok e s 0 (asks evs) hi.cache).2.2.1 i (hso ▸ hil)
          rw [← e1] at this
          rcases this with hc | hc
          · obtain ⟨t, ht⟩ := cacheHas_iff.1 hc
            exact .inl ⟨t, hperm.mem_iff.2 ht⟩
          · exact .inr hc

/-- Once the S2A has announced a local identity, and if the token manager gives a token for it
when asked, a request carries exactly one mechanism: that identity's, with the last token
given for it.

Missing: if the token manager gives no token for the announced identity, the tokens of other
identities are sent (`C47_other_tokens_sent`). -/
theorem C47_selected_only_partial (L : Lib) (o : Options) (s : State) (evs : List Event)
    (h : Reach L o s evs) (i : Identity) (hi : (evs.filterMap announced).getLast? = some i)
    (hm : o.hasTokenManager = true) (e : Env) (ha : ∃ t, e.answer 0 (some i) = .ok t)
    (bytes : Option Bytes) (b : Bytes) (asked : Asked)
    (hb : (getBytesForS2A e s bytes).2 = (⟨.ok, 0, some b⟩, asked)) (hl : b.length < 2 ^ 64) :
    ∃ m t, readRequest b = some m ∧ m.authMechanisms = [mechanismOf (i, t)] ∧
      latest (asks evs ++ asked) i = some t := by
  have hinv := h.inv
  have hs : s.selected = some i := hinv.selected.trans hi
  obtain ⟨t, h1, h2⟩ := populate_selected e s (asks evs) i hinv.cache
    (hinv.config.hasTokenManager.trans hm) hs ha
  rw [getBytesForS2A_eq] at hb
  cases hp : plan e s bytes with
  | none => rw [hp] at hb; simp [Status.fail] at hb
  | some k =>
    rw [hp] at hb
    simp only at hb
    cases hf : e.serializeFails with
    | true => rw [hf] at hb; simp [Status.fail] at hb
    | false =>
      simp only [hf, if_neg Bool.false_ne_true, Prod.mk.injEq, Status.mk.injEq,
        Option.some.injEq, true_and] at hb
      obtain ⟨rfl, rfl⟩ := hb
      refine ⟨_, t, read_reqOf hp hl, ?_, h1⟩
      have hperm := e.orderTokens_perm (populate e s).1.cache
      rw [h2] at hperm
      have := List.perm_singleton.1 hperm
      simp only [reqOf, h2, this, List.map_cons, List.map_nil, mechanism, mechanismOf,
        identityToProto_eq, Identity.cut, cstr_eq_cut]

/-- The mechanisms of a request. -/
def Demo.mechanisms (st : Status) : Option (List AuthMechanism) :=
  (st.buffer.bind readRequest).map (·.authMechanisms)

/-- Witness: a server with two local identities sends both tokens; once one of them is
announced it sends that one only. -/
example :
    mechanisms (getBytesForS2A env (made server) (some [9])).2.1 =
      some [mechanismOf (⟨.spiffeId, [108]⟩, [108, 7]), mechanismOf (⟨.uid, [109]⟩, [109, 7])] ∧
    mechanisms (getBytesForS2A env
        (hist server [.forS2A env (some [9]), says announce]).1 (some [9])).2.1 =
      some [mechanismOf (⟨.uid, [109]⟩, [109, 7])] ∧
    runs server [.forS2A env (some [9]), says announce] = true ∧
    ((hist server [.forS2A env (some [9]), says announce]).2.filterMap announced).getLast? =
      some ⟨.uid, [109]⟩ := by
  decide +kernel

/-- If the token manager has no token for the announced identity, the next request carries the
token of another identity. -/
theorem C47_other_tokens_sent :
    ∃ (s : State) (evs : List Event) (st : Status), Reach Lib.toy server s evs ∧
      (evs.filterMap announced).getLast? = some ⟨.uid, [109]⟩ ∧
      (getBytesForS2A envRefusing s (some [9])).2.1 = st ∧ st.code = .ok ∧
      mechanisms st = some [⟨some (.spiffeId [108]), some [108, 7]⟩] :=
  ⟨_, _, _, reach (ops := [.forS2A envRefusing (some [9]), says announce]) (by decide +kernel),
    by decide +kernel, rfl, by decide +kernel, by decide +kernel⟩

/-! ## C53: several frame protectors -/

/-- Every frame protector obtained from a proxy, with any history of calls on it: no two AEAD
calls between the same two key updates use the same nonce, in either direction.

Missing for the property: different frame protectors of one proxy, which do share keys and
nonces (`C53_shared_nonces`). -/
theorem C53_one_protector_partial (L : Lib) (A : Frame.Allocator) (o : Options) (s s' : State)
    (evs : List Event) (_h : Reach L o s evs) (fIn fOut : KeyFault) (p q : Frame.State)
    (hp : createFrameProtector L fIn fOut s = .ok (s', .ok p)) (ops : List Frame.Op)
    (fevs : List Frame.Event) (hq : Frame.run L A p ops = .ok (q, fevs)) :
    (Spec.epochNonces 0 (Record.outTrace q.evs)).Nodup ∧
      (Spec.epochNonces 0 (Record.inTrace q.evs)).Nodup := by
  have hc : ∃ fo, Frame.Created L fo p := by
    unfold createFrameProtector at hp
    split at hp
    · cases hp
    · split at hp
      · cases hp
      · rename_i r _
        rw [HalfConn.exec_bind_eq_ok] at hp
        obtain ⟨x, h1, h2⟩ := hp
        cases h2
        exact ⟨_, _, _, h1⟩
  obtain ⟨fo, hc⟩ := hc
  have hr : Frame.Reach L A fo q := ⟨p, ops, fevs, hc, hq⟩
  exact Record.C14_connection_nonces_unique L _ _ _ hr.conn.1

/-- Two frame protectors created from the same handshake seal different plaintexts with the
same key and the same nonce. -/
theorem C53_shared_nonces :
    ∃ (s s1 s2 : State) (evs : List Event) (p q p' q' : Frame.State) (rp rq : Frame.Result),
      Reach Lib.toy client s evs ∧
      createFrameProtector Lib.toy .none .none s = .ok (s1, .ok p) ∧
      createFrameProtector Lib.toy .none .none s1 = .ok (s2, .ok q) ∧
      Frame.protect Lib.toy Frame.Demo.alloc (fun _ => .none) p [.buf [1]] = .ok (p', rp) ∧
      Frame.protect Lib.toy Frame.Demo.alloc (fun _ => .none) q [.buf [2]] = .ok (q', rq) ∧
      rp.status = .ok ∧ rq.status = .ok ∧
      ∃ key nonce, Record.outTrace p'.evs = [.aead key nonce] ∧
        Record.outTrace q'.evs = [.aead key nonce] :=
  ⟨_, _, _, _, _, _, _, _, _, _, reach (ops := full) (by decide +kernel), rfl, rfl, rfl, rfl,
    by decide +kernel, by decide +kernel, _, _, rfl, rfl⟩

end S2A.Proxy
