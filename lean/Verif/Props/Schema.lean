import Verif.Lemmas.Schema
import Verif.Props.Context
import Verif.Props.Proxy
/-
What is on the wire is what the .proto files say.
-/
namespace S2A
open Proto Wire
open Spec

set_option maxRecDepth 100000

/-! ## C86: requests, responses and contexts follow the .proto files -/

/-- The reader of responses accepts exactly the messages of the schema, with the values that the
schema gives them. -/
theorem C86_response (utf8 : Bytes → Bool) (bs : Bytes) (m : SessionResp) :
    SessionResp.parse utf8 bs = some m ↔ ResponseMsg utf8 bs m :=
  response_iff utf8 bs m

/-- Witness: a response with two bytes for the peer, a status, and a field of a later version. -/
example : ResponseMsg (fun _ => true) [18, 2, 7, 8, 24, 5, 42, 0, 120, 1]
    ⟨none, [7, 8], 5, none, some ⟨0, []⟩⟩ :=
  (C86_response _ _ _).1 (by decide +kernel)

/-- Witness: a hostname with an attribute ("a" = "b") is an identity; with an attribute whose key is
cut off it is none. -/
example : IdentityMsg (fun _ => true) [18, 1, 104, 26, 6, 10, 1, 97, 18, 1, 98] (.hostname [104]) ∧
    ∀ m, ¬ IdentityMsg (fun _ => true) [18, 1, 104, 26, 3, 10, 2, 97] m :=
  ⟨(identity_iff _ _ _).1 (by decide +kernel), fun m h => by
    have := (identity_iff _ _ _).2 h
    rw [show PIdentity.parse (fun _ => true) [18, 1, 104, 26, 3, 10, 2, 97] = none from by
      decide +kernel] at this
    cases this⟩

/-- What a message means is determined by its bytes. -/
theorem C86_request_unique (utf8 : Bytes → Bool) (bs : Bytes) (m m' : SessionReq)
    (h : RequestMsg utf8 bs m) (h' : RequestMsg utf8 bs m') : m = m' :=
  Option.some.inj ((request_read h).symm.trans (request_read h'))

/-- A serialized request is what the schema says. -/
theorem request_serialize {utf8 : Bytes → Bool} {m : SessionReq}
    (hl : m.serialize.length < 2 ^ 64) (hk : m.kind ≠ .unset)
    (h : SessionReq.parse utf8 m.serialize = some m) : RequestMsg utf8 m.serialize m := by
  have hd : decode m.serialize = some m.fields := by
    refine decode_encode_short _ ?_ hl
    refine ok_append ?_ (ok_putAll (by decide) (by decide))
    cases m.kind <;> simp [ReqKind.fields, FieldOk']
  have hf : ∃ f, f.1 ≤ 4 ∧ m.kind.fields = [f] := by
    cases hm : m.kind with
    | unset => exact absurd hm hk
    | clientStart c => exact ⟨_, by simp, rfl⟩
    | serverStart c => exact ⟨_, by simp, rfl⟩
    | next c => exact ⟨_, by simp, rfl⟩
    | resumptionTicket c => exact ⟨_, by simp, rfl⟩
  obtain ⟨f, h1, h2⟩ := hf
  refine request_written (f := f) (ms := m.authMechanisms.map AuthMechanism.serialize) ?_ h1 hk h
  rw [hd, SessionReq.fields, h2]
  rfl

namespace Proxy

/-- Every request emitted in a history is a request of the schema: exactly one member of its
`oneof`, the authentication mechanisms, and nothing else. -/
theorem C86_requests (L : Lib) (o : Options) (s : State) (evs : List Event)
    (h : Reach L o s evs) (g b : Bytes) (hr : (g, b) ∈ requests evs) (hl : b.length < 2 ^ 64) :
    ∃ m, RequestMsg (fun _ => true) b m ∧ readRequest b = some m := by
  have key : Reach L o s evs ∧ ∀ g b, (g, b) ∈ requests evs → b.length < 2 ^ 64 →
      ∃ m, RequestMsg (fun _ => true) b m ∧ readRequest b = some m := by
    refine h.induction (P := fun s evs => Reach L o s evs ∧ ∀ g b, (g, b) ∈ requests evs →
      b.length < 2 ^ 64 → ∃ m, RequestMsg (fun _ => true) b m ∧ readRequest b = some m)
      (fun s hs => ⟨.start hs, fun _ _ h => by cases h⟩) ?_
    rintro s evs op s' ev ⟨h1, ih⟩ hs
    refine ⟨h1.step hs, fun g b hm hl => ?_⟩
    rw [requests, List.filterMap_append, List.mem_append] at hm
    rcases hm with hm | hm
    · exact ih g b hm hl
    simp only [List.filterMap_cons, List.filterMap_nil] at hm
    have hq : request ev = some (g, b) := by
      cases hq : request ev with
      | none => rw [hq] at hm; cases hm
      | some x => rw [hq] at hm; rw [List.mem_singleton.1 hm]
    obtain ⟨given, n, asked, rfl, rfl⟩ := request_iff.1 hq
    cases op with
    | forPeer dec bytes => cases hs
    | isFinished => cases hs
    | createFrameProtector fIn fOut =>
      simp only [Proxy.step, HalfConn.exec_bind_eq_ok] at hs
      obtain ⟨⟨s1, p⟩, _, h2⟩ := hs
      cases h2
    | getContext => simp only [Proxy.step] at hs; cases hs
    | forS2A e bytes =>
      have hst : (getBytesForS2A e s bytes).2.1 = ⟨.ok, n, some b⟩ := by
        simp only [Proxy.step, Except.ok.injEq, Prod.mk.injEq, Event.forS2A.injEq] at hs
        exact hs.2.2.1
      rw [getBytesForS2A_eq] at hst
      cases hp : plan e s bytes with
      | none => rw [hp] at hst; cases hst
      | some k =>
        rw [hp] at hst
        cases he : e.serializeFails with
        | true => simp [he, Status.fail] at hst
        | false =>
          simp only [he, if_neg Bool.false_ne_true, Status.mk.injEq, Option.some.injEq,
            true_and] at hst
          obtain ⟨_, rfl⟩ := hst
          have hrd := read_reqOf hp hl
          refine ⟨_, request_serialize hl ?_ hrd, hrd⟩
          show k ≠ .unset
          intro hk
          subst hk
          unfold plan at hp
          split at hp
          · split at hp
            · split at hp
              · cases hp
              · simp at hp
            · simp at hp
          · split at hp <;> cases hp
  exact key.2 g b hr hl

/-- Witness: a server emits two requests. -/
example : Reach Lib.toy Demo.server (Demo.hist Demo.server [.forS2A Demo.env (some [9]),
      Demo.says Demo.frames, .forS2A Demo.env (some [8])]).1
      (Demo.hist Demo.server [.forS2A Demo.env (some [9]), Demo.says Demo.frames,
        .forS2A Demo.env (some [8])]).2 ∧
    (requests (Demo.hist Demo.server [.forS2A Demo.env (some [9]), Demo.says Demo.frames,
      .forS2A Demo.env (some [8])]).2).length = 2 :=
  ⟨Demo.reach (by decide +kernel), by decide +kernel⟩

/-- What a response does depends only on what the schema says it means; bytes that are no response
of the schema do the same as a failing decoder. -/
theorem C86_response_effect (utf8 : Bytes → Bool) (s : State) (bs : Bytes) :
    (∀ m, ResponseMsg utf8 bs m → getBytesForPeer (SessionResp.parse utf8) s (some bs) =
      getBytesForPeer (fun _ => some m) s (some bs)) ∧
    ((∀ m, ¬ ResponseMsg utf8 bs m) → getBytesForPeer (SessionResp.parse utf8) s (some bs) =
      getBytesForPeer (fun _ => none) s (some bs)) := by
  have key : ∀ dec dec' : Bytes → Option SessionResp, dec bs = dec' bs →
      getBytesForPeer dec s (some bs) = getBytesForPeer dec' s (some bs) := by
    intro dec dec' h
    unfold getBytesForPeer
    simp only [Option.getD_some, h]
  refine ⟨fun m h => key _ _ ((response_iff _ _ _).2 h), fun h => key _ _ ?_⟩
  cases hp : SessionResp.parse utf8 bs with
  | none => rfl
  | some m => exact absurd ((response_iff _ _ _).1 hp) (h m)

end Proxy

/-- A serialized context is what the schema says: each string up to its first NUL byte. -/
theorem C86_context_written (c : Context) (b : Bytes) (hs : c.serialize false = .ok b)
    (hb : b.length < 2 ^ 64) :
    ∃ v n, wireTlsVersion c.tlsVersion = some v ∧ wireCiphersuite c.ciphersuite = some n ∧
      ContextMsg (fun _ => true) b
        { applicationProtocol := cut c.applicationProtocol
          tlsVersion := v
          ciphersuite := n
          peerIdentity := wireIdentity ⟨c.peerIdentity.type, cut c.peerIdentity.value⟩
          localIdentity := wireIdentity ⟨c.localIdentity.type, cut c.localIdentity.value⟩
          peerCertFingerprint := cut c.peerCertFingerprint
          localCertFingerprint := cut c.localCertFingerprint
          isHandshakeResumed := c.isHandshakeResumed } := by
  unfold Context.serialize at hs
  rw [tlsVersionToProto_eq, ciphersuiteToProto_eq] at hs
  cases hv : wireTlsVersion c.tlsVersion with
  | none => simp [hv, bind, Except.bind, orFail] at hs
  | some v =>
    cases hc : wireCiphersuite c.ciphersuite with
    | none => simp [hv, hc, bind, Except.bind, orFail] at hs
    | some n =>
      simp only [hv, hc, orFail, bind, Except.bind, if_neg Bool.false_ne_true, Except.ok.injEq,
        identityToProto_eq] at hs
      subst hs
      refine ⟨v, n, rfl, rfl, (context_iff _ _ _).1 ?_⟩
      exact PContext.parse_serialize _ _ hb (wireTlsVersion_lt hv) (wireCiphersuite_lt hc) rfl
        (fun _ _ _ _ => rfl) (fun _ _ _ _ => rfl)

/-- Witness: an ordinary context. -/
example : ∃ b, demoContext.serialize false = .ok b ∧ b.length < 2 ^ 64 :=
  ⟨_, rfl, by decide +kernel⟩

/-- A context is read from exactly the contexts of the schema that have supported enum values, and
has the values that the schema gives. -/
theorem C86_context_read (utf8 : Bytes → Bool) (b : Bytes) (c : Context) :
    Context.deserialize utf8 b = .ok c ↔
      ∃ m, ContextMsg utf8 b m ∧
        wireTlsVersion c.tlsVersion = some m.tlsVersion ∧
        wireCiphersuite c.ciphersuite = some m.ciphersuite ∧
        c.applicationProtocol = m.applicationProtocol ∧
        c.peerIdentity = identityOf m.peerIdentity ∧
        c.localIdentity = identityOf m.localIdentity ∧
        c.peerCertFingerprint = m.peerCertFingerprint ∧
        c.localCertFingerprint = m.localCertFingerprint ∧
        c.isHandshakeResumed = m.isHandshakeResumed := by
  unfold Context.deserialize
  constructor
  · intro h
    cases hp : PContext.parse utf8 b with
    | none => simp [hp] at h
    | some m =>
      simp only [hp, bind, Except.bind] at h
      cases hv : Util.tlsVersionFromProto m.tlsVersion with
      | error e => simp [hv] at h
      | ok v =>
        cases hc : Util.ciphersuiteFromProto m.ciphersuite with
        | error e => simp [hv, hc] at h
        | ok s =>
          simp only [hv, hc, Except.ok.injEq] at h
          subst h
          exact ⟨m, (context_iff _ _ _).1 hp, Proxy.tlsVersionFromProto_ok.1 hv,
            Proxy.ciphersuiteFromProto_ok.1 hc, rfl, Proxy.identityFromProto_eq _,
            Proxy.identityFromProto_eq _, rfl, rfl, rfl⟩
  · rintro ⟨m, h, hv, hc, e1, e2, e3, e4, e5, e6⟩
    rw [(context_iff _ _ _).2 h]
    simp only [Proxy.tlsVersionFromProto_ok.2 hv, Proxy.ciphersuiteFromProto_ok.2 hc, bind,
      Except.bind, Proxy.identityFromProto_eq, ← e1, ← e2, ← e3, ← e4, ← e5, ← e6]

/-- A request for resumption tickets that was prepared is what the schema says. -/
theorem C86_ticket (id : UInt64) (i : Identity) (p : PIdentity) (ts : List Bytes)
    (hi : wireIdentity ⟨i.type, cut i.value⟩ = some p)
    (hl : (TicketSender.prepare id i (some ts) TicketSender.emptyReq).2.serialize.length < 2 ^ 64) :
    RequestMsg (fun _ => true)
      (TicketSender.prepare id i (some ts) TicketSender.emptyReq).2.serialize
      ⟨.resumptionTicket ⟨ts, id.toNat, some p⟩, []⟩ := by
  have e : TicketSender.prepare id i (some ts) TicketSender.emptyReq =
      (true, ⟨.resumptionTicket ⟨ts, id.toNat, some p⟩, []⟩) := by
    simp [TicketSender.prepare, TicketSender.emptyReq, identityToProto_eq, Identity.cut, hi]
  rw [e] at hl ⊢
  exact request_serialize hl (by simp) (SessionReq.parse_serialize _ _ hl
    ⟨id.toNat_lt, fun _ _ _ _ => rfl⟩ (by simp))

/-- Witness: two tickets for a connection of a SPIFFE ID. -/
example : wireIdentity ⟨.spiffeId, cut [97, 98]⟩ = some (.spiffeId [97, 98]) ∧
    (TicketSender.prepare 7 ⟨.spiffeId, [97, 98]⟩ (some [[1], [2, 0]])
      TicketSender.emptyReq).2.serialize =
        [34, 15, 10, 1, 1, 10, 2, 2, 0, 16, 7, 26, 4, 10, 2, 97, 98] :=
  ⟨rfl, by decide +kernel⟩

end S2A
