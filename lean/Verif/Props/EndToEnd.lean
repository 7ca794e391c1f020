import Verif.Spec.EndToEnd
import Verif.Props.Proxy
import Verif.Props.Orderly
/-
C65: from the results of the two handshakes to the data delivered.
-/
namespace S2A.Proxy
open Proto
open Spec (EndsWith OneSession Usable Session SessionSteps Paired AllocOk NonEmptyBufs Mirrored
  carried)
open Demo

set_option maxRecDepth 100000

theorem wireCiphersuite_inj {a b : Ciphersuite} {n : Nat}
    (h1 : Spec.wireCiphersuite a = some n) (h2 : Spec.wireCiphersuite b = some n) : a = b := by
  cases a <;> cases b <;> simp_all [Spec.wireCiphersuite] <;> omega

theorem wireTlsVersion_inj {a b : TlsVersion} {n : Nat}
    (h1 : Spec.wireTlsVersion a = some n) (h2 : Spec.wireTlsVersion b = some n) : a = b := by
  cases a <;> cases b <;> simp_all [Spec.wireTlsVersion] <;> omega

/-- The options from which a frame protector was made. -/
theorem made_from {L : Lib} {o : Options} {s : State} {evs : List Event} {st : SessionState}
    (h : Reach L o s evs) (he : EndsWith evs st) (fIn fOut : KeyFault) :
    ∃ opts fac li v cs, o.options = some opts ∧
      Spec.wireTlsVersion v = some st.tlsVersion ∧
      Spec.wireCiphersuite cs = some st.ciphersuite ∧
      (createFrameProtector L fIn fOut s).map (·.2) =
        Frame.create L fIn fOut (Spec.protectorOptions opts.s2aAddress fac st li v cs) := by
  obtain ⟨pre, ev, post, r, li, v, cs, rfl, h1, h2, h3⟩ := he
  have ho := h.inv.config.options
  obtain ⟨fac, _, _, h4⟩ := C46_uses_result_partial L o _ s pre post ev r st li v cs h ho h1 h2 h3
    fIn fOut
  exact ⟨_, fac, li, v, cs, ho, h2.version, h2.suite, h4⟩

theorem map_eq_ok {α β : Type} {x : Exec α} {f : α → β} {a : α} {b : β} (h : x = .ok a)
    (hm : x.map f = .ok b) : f a = b := by
  subst h
  exact Except.ok.inj hm

/-- Protectors made from the results of one session at both ends are paired. -/
theorem made_paired {L : Lib} {o o' : Options} {s s' t t' : State} {evs evs' : List Event}
    {st st' : SessionState} {fIn fOut fIn' fOut' : KeyFault} {p p' : Frame.State}
    (h : Reach L o s evs) (h' : Reach L o' s' evs') (he : EndsWith evs st)
    (he' : EndsWith evs' st') (hs : OneSession st st')
    (hp : createFrameProtector L fIn fOut s = .ok (t, .ok p))
    (hp' : createFrameProtector L fIn' fOut' s' = .ok (t', .ok p')) :
    ∃ q q', Frame.Created L q p ∧ Frame.Created L q' p' ∧ Paired q q' := by
  obtain ⟨opts, fac, li, v, cs, _, _, c1, m⟩ := made_from h he fIn fOut
  obtain ⟨opts', fac', li', v', cs', _, _, c2, m'⟩ := made_from h' he' fIn' fOut'
  rw [hp] at m
  rw [hp'] at m'
  rw [← hs.suite] at c2
  cases wireCiphersuite_inj c1 c2
  refine ⟨_, _, ⟨fIn, fOut, m.symm⟩, ⟨fIn', fOut', m'.symm⟩, ⟨rfl, hs.key, hs.key', ?_, ?_⟩⟩
  · exact congrArg UInt64.ofNat hs.seq
  · exact congrArg UInt64.ofNat hs.seq'

/-! ## C65 -/

/-- A client and a server run the handshake through their proxies, with any history of calls.
If the session states the S2As reported last are those of one session, then the frame
protectors that `CreateFrameProtector` returns at both ends understand each other: in any
exchange of messages and key updates, in both directions, what is received next is exactly
what was sent first. -/
theorem C65_end_to_end (L : Lib) (A : Frame.Allocator) (hA : AllocOk A) (o o' : Options)
    (s s' t t' : State) (evs evs' : List Event) (st st' : SessionState)
    (fIn fOut fIn' fOut' : KeyFault) (p p' : Frame.State)
    (h : Reach L o s evs) (h' : Reach L o' s' evs') (he : EndsWith evs st)
    (he' : EndsWith evs' st') (hs : OneSession st st')
    (hp : createFrameProtector L fIn fOut s = .ok (t, .ok p))
    (hp' : createFrameProtector L fIn' fOut' s' = .ok (t', .ok p')) (y : Session)
    (hy : SessionSteps L A ⟨fun b => if b then p' else p, fun _ => []⟩ y) (b : Bool)
    (w m : Bytes) (rest : List (Bytes × Bytes)) (hw : y.wire (!b) = (w, m) :: rest)
    (ws : List Iovec) (hws : NonEmptyBufs ws) (hfl : flat ws = w) (g : Nat → Record.Fault)
    (hg : ∀ i, g i = .none) :
    ∃ z bufs, Frame.unprotect L A g (y.ends b) ws = .ok (z, ⟨.ok, bufs⟩) ∧
      (bufs.map (·.2)).flatten = m := by
  obtain ⟨q, q', c, c', hq⟩ := made_paired h h' he he' hs hp hp'
  exact Frame.C02_in_order_delivery L A hA q q' p p' c c' hq y hy b w m rest hw ws hws hfl g hg

/-- The same with an attacker on the network, who gives the receiver any bytes: without
forgeries and key collisions, and until the first failing call of the receiver, what was
received is a prefix of what was sent. -/
theorem C65_end_to_end_attacked (L : Lib) (A A' : Frame.Allocator) (hA : AllocOk A)
    (hA' : AllocOk A') (su : Spec.Suite) (o o' : Options)
    (s s' t t' : State) (evs evs' : List Event) (st st' : SessionState)
    (fIn fOut fIn' fOut' : KeyFault) (p p' : Frame.State)
    (h : Reach L o s evs) (h' : Reach L o' s' evs') (he : EndsWith evs st)
    (he' : EndsWith evs' st') (hs : OneSession st st')
    (hp : createFrameProtector L fIn fOut s = .ok (t, .ok p))
    (hp' : createFrameProtector L fIn' fOut' s' = .ok (t', .ok p'))
    (hsu : ∀ cs, Spec.wireCiphersuite cs = some st.ciphersuite → Spec.suite cs = some su)
    (opsA opsB : List Frame.Op) (sa sb : Frame.State) (resA resB : List Frame.Event)
    (hra : Frame.run L A p opsA = .ok (sa, resA)) (hrb : Frame.run L A' p' opsB = .ok (sb, resB))
    (hva : ∀ op ∈ opsA, Spec.ValidFrameArgs op) (hvb : ∀ op ∈ opsB, Spec.ValidFrameArgs op)
    (hu : Spec.Unforged sa.evs sb.evs)
    (hk : ∀ a : Record.CreateArgs, a.inSecret = st'.inKey → a.outSecret = st'.outKey →
      Spec.KeysDistinct L su a sa.evs sb.evs)
    (hsend : Spec.SendsOk opsA resA) (hrecv : Spec.ReceivesOk opsB resB) :
    Spec.receivedBytes opsB resB <+: Spec.sentBytes opsA := by
  obtain ⟨opts, fac, li, v, cs, _, _, c1, m⟩ := made_from h he fIn fOut
  obtain ⟨opts', fac', li', v', cs', _, _, c2, m'⟩ := made_from h' he' fIn' fOut'
  rw [hp] at m
  rw [hp'] at m'
  rw [← hs.suite] at c2
  cases wireCiphersuite_inj c1 c2
  exact Frame.C62_frame_prefix L A A' hA hA' su
    (Spec.protectorOptions opts.s2aAddress fac st li v cs)
    (Spec.protectorOptions opts'.s2aAddress fac' st' li' v' cs) p sa p' sb opsA opsB resA resB
    (hsu _ c1) ⟨rfl, hs.key, congrArg UInt64.ofNat hs.seq⟩ ⟨fIn, fOut, m.symm⟩ ⟨fIn', fOut', m'.symm⟩
    hra hrb hva hvb hu (hk _ rfl rfl) hsend hrecv

/-- And the protectors are there: with a configured S2A address, if the session is TLS 1.3
with keys of the right size, `CreateFrameProtector` succeeds (if the library does not fail),
however often it was called before. -/
theorem C65_protector_created (L : Lib) (o : Options) (opts : TlsOptions) (s : State)
    (evs : List Event) (st : SessionState) (h : Reach L o s evs) (ho : o.options = some opts)
    (hu : opts.s2aAddress ≠ []) (he : EndsWith evs st) (hst : Usable st) :
    ∃ t p, createFrameProtector L .none .none s = .ok (t, .ok p) := by
  obtain ⟨opts', fac, li, v, cs, ho', c0, c1, m⟩ := made_from h he .none .none
  rw [ho] at ho'
  cases ho'
  cases wireTlsVersion_inj c0 hst.version
  obtain ⟨res, h1, _, _, h4⟩ := Frame.C58_protector_creation L .none .none
    (Spec.protectorOptions opts.s2aAddress fac st li .tls1_3 cs)
  have hsu : ∃ su, Spec.suite cs = some su := by
    cases cs <;> first | exact ⟨_, rfl⟩ | cases c1
  obtain ⟨su, hsu⟩ := hsu
  obtain ⟨k1, k2⟩ := hst.keys cs su c1 hsu
  obtain ⟨p, rfl⟩ := h4 su rfl rfl rfl rfl rfl hu rfl hsu k1 k2
  rw [h1] at m
  cases hx : createFrameProtector L .none .none s with
  | error e => rw [hx] at m; cases m
  | ok x =>
    obtain ⟨t, r⟩ := x
    rw [hx] at m
    cases (Except.ok.inj m : r = .ok p)
    exact ⟨t, p, rfl⟩

/-! ### Witness: the client and the server of Props/Proxy.lean -/

/-- The session state at the server. -/
def Demo.serverState : SessionState :=
  { state with
    inKey := state.outKey, outKey := state.inKey
    inSequence := state.outSequence, outSequence := state.inSequence }

/-- The response that ends the server's handshake. -/
def Demo.serverDone : SessionResp :=
  { frames with result := some { result with
      state := some serverState, peerIdentity := some (.spiffeId [108])
      localIdentity := some (.uid [109]) } }

/-- The history of the server. -/
def Demo.serverFull : List Op :=
  [.forS2A env (some [1, 2, 3]), says announce, .forS2A env (some [8]), says serverDone]

theorem Demo.four {α : Type} {l : List α} (d : α) (h : l.length = 4) :
    l = l.take 3 ++ [(l.drop 3).headD d] := by
  match l, h with
  | [_, _, _, _], _ => rfl

theorem Demo.clientEnds : EndsWith (hist client full).2 state :=
  ⟨(hist client full).2.take 3, ((hist client full).2.drop 3).headD (.getContext (.error .ok)), [],
    result, .spiffeId [108], .tls1_3, .aes128GcmSha256, four _ (by decide +kernel), by decide +kernel, ⟨rfl, rfl, rfl, rfl⟩, by simp⟩

theorem Demo.serverEnds : EndsWith (hist server serverFull).2 serverState :=
  ⟨(hist server serverFull).2.take 3, ((hist server serverFull).2.drop 3).headD (.getContext (.error .ok)),
    [], _, .uid [109], .tls1_3, .aes128GcmSha256, four _ (by decide +kernel), by rfl, ⟨rfl, rfl, rfl, rfl⟩, by simp⟩

/-- Both handshakes, both protectors, and a message and its answer. -/
example : ∃ t p t' p' p1 w q1 q2 w2 p2 id id' id2 id2',
    Reach Lib.toy client (hist client full).1 (hist client full).2 ∧
    Reach Lib.toy server (hist server serverFull).1 (hist server serverFull).2 ∧
    EndsWith (hist client full).2 state ∧ EndsWith (hist server serverFull).2 serverState ∧
    OneSession state serverState ∧ Usable state ∧ opts.s2aAddress ≠ [] ∧
    createFrameProtector Lib.toy .none .none (hist client full).1 = .ok (t, .ok p) ∧
    createFrameProtector Lib.toy .none .none (hist server serverFull).1 = .ok (t', .ok p') ∧
    Frame.protect Lib.toy Frame.Demo.alloc (fun _ => .none) p [.buf [1, 2]] =
      .ok (p1, ⟨.ok, [(id, w)]⟩) ∧
    Frame.unprotect Lib.toy Frame.Demo.alloc (fun _ => .none) p' [.buf w] =
      .ok (q1, ⟨.ok, [(id', [1, 2])]⟩) ∧
    Frame.protect Lib.toy Frame.Demo.alloc (fun _ => .none) q1 [.buf [3]] =
      .ok (q2, ⟨.ok, [(id2, w2)]⟩) ∧
    Frame.unprotect Lib.toy Frame.Demo.alloc (fun _ => .none) p1 [.buf w2] =
      .ok (p2, ⟨.ok, [(id2', [3])]⟩) := by
  refine ⟨_, _, _, _, _, _, _, _, _, _, _, _, _, _, reach (by decide +kernel),
    reach (by decide +kernel), clientEnds, serverEnds, ⟨rfl, rfl, rfl, rfl, rfl⟩, ⟨rfl, ?_⟩,
    by decide, rfl, rfl, rfl, rfl, rfl, rfl⟩
  intro cs su h1 h2
  cases wireCiphersuite_inj h1 (show Spec.wireCiphersuite .aes128GcmSha256 = some 0 from rfl)
  cases h2
  decide

end S2A.Proxy
