import Verif.Props.ProxyExact
import Verif.Lemmas.Channel
/-
C101: the channel to the S2A.
-/
namespace S2A.Proxy
open Spec (attempted lastStated)
open Demo

set_option maxRecDepth 100000

/-! ## C101: every frame protector can reach the S2A -/

/-- Exactly what the ticket request of a frame protector made by a proxy carries, after any history of
the proxy and any calls on the protector: the configured address of the S2A; connection id and local
identity of the result; and the configured channel factory exactly if no earlier call of
`CreateFrameProtector` made a protector or tried to. -/
theorem C101_ticket_request_exact (L : Lib) (A : Frame.Allocator) (o : Options) (opts : TlsOptions)
    (s s' : State) (evs : List Event) (p p' : Frame.State) (fIn fOut : KeyFault)
    (ops : List Frame.Op) (res : List Frame.Event) (h : Reach L o s evs)
    (ho : o.options = some opts) (hc : createFrameProtector L fIn fOut s = .ok (s', .ok p))
    (hr : Frame.run L A p ops = .ok (p', res)) (x : Record.SenderCall) (hx : x ∈ p'.conn.sent) :
    x.url = opts.s2aAddress ∧
    (x.hasFactory = true ↔ o.hasFactory = true ∧ ∀ ev ∈ evs, attempted ev = false) ∧
    (∀ r st li, lastStated evs = some r → r.state = some st → r.localIdentity = some li →
      x.connectionId = .ofNat st.connectionId ∧ x.localIdentity = Spec.identityOf (some li)) := by
  obtain ⟨r0, h1, h2⟩ := createFrameProtector_from hc
  have hso : s.options = opts := by
    have := h.inv.config.options
    rw [ho] at this
    exact (Option.some.inj this).symm
  have hreach : Frame.Reach L A (frameOptions s r0) p' := ⟨p, ops, res, h2, hr⟩
  have hinv := hreach.conn.1.inv
  have hxs : x.url = s.options.s2aAddress ∧ x.connectionId = r0.connectionId ∧
      x.localIdentity = r0.localIdentity ∧ x.hasFactory = s.hasFactory := by
    cases hret : p'.conn.handler.retrieved with
    | false => rw [(hinv.kept hret).1] at hx; cases hx
    | true =>
      obtain ⟨_, hs1, _, _, e⟩ := hinv.sent hret
      rw [e, List.mem_singleton] at hx
      subst hx
      exact ⟨rfl, rfl, rfl, rfl⟩
  obtain ⟨x1, x2, x3, x4⟩ := hxs
  refine ⟨x1.trans (by rw [hso]), by rw [x4]; exact factory_exact h, ?_⟩
  intro r st li hl hst hli
  obtain ⟨fi, fo, hcr⟩ := h2
  obtain ⟨n1, _, su, n2, n3, _⟩ := frame_create_needs hcr
  have hk : r0 = kept r st := by
    have := h.result
    rw [hl] at this
    simp only [keptOf, hst, Option.map_some] at this
    rw [h1] at this
    exact Option.some.inj this
  unfold kept at hk
  rw [hli] at hk
  cases hv : Util.tlsVersionFromProto st.tlsVersion with
  | error c => rw [hv] at hk; subst hk; cases n1
  | ok v =>
    simp only [hv] at hk
    cases hcs : Util.ciphersuiteFromProto st.ciphersuite with
    | error c =>
      simp only [hcs] at hk
      subst hk
      cases n2
      cases n3
    | ok cs =>
      simp only [hcs] at hk
      subst hk
      exact ⟨x2, x3⟩

/-- So the first protector of a proxy can reach the S2A if the proxy could.

Missing from the full property: later protectors, which never can (`C101_later_protectors`). -/
theorem C101_first_protector_partial (L : Lib) (A : Frame.Allocator) (o : Options)
    (s s' : State) (evs : List Event) (p p' : Frame.State) (fIn fOut : KeyFault)
    (ops : List Frame.Op) (res : List Frame.Event) (h : Reach L o s evs)
    (hf : o.hasFactory = true) (hn : ∀ ev ∈ evs, attempted ev = false)
    (hc : createFrameProtector L fIn fOut s = .ok (s', .ok p))
    (hr : Frame.run L A p ops = .ok (p', res)) :
    ∀ x ∈ p'.conn.sent, x.hasFactory = true := by
  intro x hx
  obtain ⟨opts, ho⟩ : ∃ opts, o.options = some opts := ⟨_, h.inv.config.options⟩
  exact (C101_ticket_request_exact L A o opts s s' evs p p' fIn fOut ops res h ho hc hr x hx).2.1.2
    ⟨hf, hn⟩

/-- After a call of `CreateFrameProtector` that made a protector or failed to make one, no protector
that the proxy makes can reach the S2A: every ticket request of it lacks the channel factory. -/
theorem C101_later_protectors (L : Lib) (A : Frame.Allocator) (o : Options)
    (s s' : State) (evs : List Event) (p p' : Frame.State) (fIn fOut : KeyFault)
    (ops : List Frame.Op) (res : List Frame.Event) (h : Reach L o s evs)
    (hn : ∃ ev ∈ evs, attempted ev = true)
    (hc : createFrameProtector L fIn fOut s = .ok (s', .ok p))
    (hr : Frame.run L A p ops = .ok (p', res)) :
    ∀ x ∈ p'.conn.sent, x.hasFactory = false := by
  intro x hx
  obtain ⟨opts, ho⟩ : ∃ opts, o.options = some opts := ⟨_, h.inv.config.options⟩
  have := (C101_ticket_request_exact L A o opts s s' evs p p' fIn fOut ops res h ho hc hr x hx).2.1
  obtain ⟨ev, hm, ha⟩ := hn
  cases hx : x.hasFactory with
  | false => rfl
  | true =>
    rw [(this.1 hx).2 ev hm] at ha
    cases ha

/-- What a record of the peer is for the protectors of the demo proxy. -/
def Demo.incoming (n : Nat) (inner : Bytes) : Bytes :=
  Record.Demo.recordAt ⟨Record.Demo.suite, List.replicate 32 1, 5 + n⟩ inner

/-- A ticket arrives, then application data. -/
def Demo.hearTicket : List Frame.Op :=
  [.unprotect (fun _ => .none) [.buf (incoming 0 [4, 0, 0, 1, 7, 22])],
   .unprotect (fun _ => .none) [.buf (incoming 1 [1, 23])]]

/-- The ticket requests of the protector that a proxy makes after a history: address, connection id,
tickets, and whether there is a channel factory. -/
def Demo.asked (ops : List Op) : Option (List (Bytes × UInt64 × List Bytes × Bool)) :=
  match createFrameProtector Lib.toy .none .none (hist client ops).1 with
  | .ok (_, .ok p) =>
    match Frame.run Lib.toy Frame.Demo.alloc p hearTicket with
    | .ok (p', _) => some (p'.conn.sent.map fun x => (x.url, x.connectionId, x.tickets, x.hasFactory))
    | _ => none
  | _ => none

/-- The factory is lost although no protector was ever made: the first call of
`CreateFrameProtector` fails because the library does, the second one succeeds, and its protector
cannot reach the S2A; with no failed call before it, it can.  The same if the first call succeeded. -/
theorem C101_counterexample :
    client.hasFactory = true ∧
    (∃ fault, Reach Lib.toy client (hist client (full ++ [.createFrameProtector fault .none])).1
        (hist client (full ++ [.createFrameProtector fault .none])).2 ∧
      (hist client (full ++ [.createFrameProtector fault .none])).2.any (fun ev => match ev with
        | .createFrameProtector (.ok _) => true
        | _ => false) = false ∧
      asked (full ++ [.createFrameProtector fault .none]) =
        some [([1, 2], 7, [[4, 0, 0, 1, 7]], false)]) ∧
    asked (full ++ [.createFrameProtector .none .none]) =
      some [([1, 2], 7, [[4, 0, 0, 1, 7]], false)] ∧
    asked full = some [([1, 2], 7, [[4, 0, 0, 1, 7]], true)] :=
  ⟨rfl, ⟨⟨.none, .none, .none, true⟩, reach (by decide +kernel), by decide +kernel, by decide +kernel⟩, by decide +kernel,
    by decide +kernel⟩

end S2A.Proxy
