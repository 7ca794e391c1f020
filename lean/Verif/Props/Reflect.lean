import Verif.Lemmas.Reflect
import Verif.Lemmas.FrameAdversary
import Verif.Props.Adversary
import Verif.Props.Status
/-
A connection does not accept its own records (C98).
-/
namespace S2A

namespace Record
open Spec
open Demo (left right)

set_option maxRecDepth 100000

/-- In every run of a connection in which no key it sends with is one it receives with: nothing
it has accepted was opened under a key that it ever sealed with.  So if nothing was forged,
everything it has accepted was sealed by the peer, and nothing by itself.

Missing: nothing in the code makes the keys of the two directions differ
(`C98_own_records_accepted`). -/
theorem C98_accepted_from_the_peer_partial (L : Lib) (s : Spec.Suite) (b : CreateArgs)
    (b0 cb : Conn) (ops : List Op) (evs : List Event) (hs : Spec.suite b.ciphersuite = some s)
    (hb0 : Created L b b0) (hr : run L b0 ops = .ok (cb, evs)) (hv : ∀ op ∈ ops, ValidArgs op)
    (hd : DirectionsDiffer L s b evs) :
    (∀ c ∈ opens evs, ∀ x ∈ seals evs, x.call.key ≠ c.key) ∧
    ∀ evsA, Unforged evsA evs → ∀ c ∈ opens evs, ∃ x ∈ seals evsA,
      x.call.key = c.key ∧ x.call.nonce = c.nonce ∧ x.call.aad = c.aad ∧ x.text = c.data := by
  have gb := hb0.at hs
  have ob := run_ok hr gb.1.good gb.2.good hv
  have fb := run_follows hs hb0 hr
  have key : ∀ c ∈ opens evs, ∀ x ∈ seals evs, x.call.key ≠ c.key := by
    intro c hc x hx he
    obtain ⟨j, hj, k1⟩ := opens_key fb.2 hc
    obtain ⟨z, _, ⟨l1, _, _⟩, z3, _⟩ := seals_entry fb.1 ob hx
    exact hd z.epoch (by omega) j (by omega) (by rw [← l1, ← k1, he])
  refine ⟨key, fun evsA hu c hc => ?_⟩
  obtain ⟨x, hx, e1, e2, e3, e4⟩ := hu c hc
  rcases List.mem_append.1 hx with hx | hx
  · exact ⟨x, hx, e1, e2, e3, e4⟩
  · exact absurd e1 (key c hc x hx)

/-- One message. -/
def Demo.say : Op := .protect .none .applicationData [.buf [1]] (.buf (zeros 23))

/-- The record that `right` makes of it. -/
def Demo.own : Bytes := Demo.recordAt ⟨Demo.suite, Demo.rightArgs.outSecret, 5⟩ [1, 23]

/-- `right` sends the message, is given what `left` made of it, and is given its own. -/
def Demo.reflected : List Op :=
  [Demo.say, Demo.recv (Demo.pos 0) [1, 23],
    .unprotect .none (.buf (Demo.own.take 5)) [.buf (Demo.own.drop 5)] (.buf (zeros 2))]

/-- Witness: of the two records, only the one of `left` is accepted. -/
example : ∃ ca evsA cb evsB, run Lib.toy left [Demo.say] = .ok (ca, evsA) ∧
    run Lib.toy right Demo.reflected = .ok (cb, evsB) ∧ (∀ op ∈ Demo.reflected, ValidArgs op) ∧
    DirectionsDiffer Lib.toy Demo.suite Demo.rightArgs evsB ∧ Unforged evsA evsB ∧
    (opens evsB).length = 1 ∧ (seals evsB).length = 1 ∧ (seals evsA).length = 1 ∧
    evsB.map (fun | .sealed r | .opened r => decide (r.code = .ok) | _ => false) =
      [true, true, false] := by
  refine ⟨_, _, _, _, rfl, rfl, ?_, ?_, by decide +kernel, by decide +kernel, by decide +kernel,
    by decide +kernel, by decide +kernel⟩
  · intro op ho
    simp only [Demo.reflected, List.mem_cons, List.not_mem_nil, or_false] at ho
    rcases ho with rfl | rfl | rfl
    · trivial
    · refine ⟨fun v hv => ?_, trivial⟩
      rw [List.mem_singleton.1 hv]; trivial
    · refine ⟨fun v hv => ?_, trivial⟩
      rw [List.mem_singleton.1 hv]; trivial
  · have h : ∀ evs : List Event, epochs (outTrace evs) = 0 → epochs (inTrace evs) = 0 →
        DirectionsDiffer Lib.toy Demo.suite Demo.rightArgs evs := by
      intro evs h1 h2
      unfold DirectionsDiffer
      rw [h1, h2]; decide +kernel
    exact h _ (by decide +kernel) (by decide +kernel)

end Record

namespace Frame
open Demo

set_option maxRecDepth 100000

/-- The same for a frame protector: in every run in which no key it sends with is one it
receives with, no record it has accepted was opened under a key it sealed with, and if nothing
was forged, each was sealed by the peer. -/
theorem C98_frame_accepted_from_the_peer_partial (L : Lib) (A : Allocator)
    (hA : Spec.AllocOk A) (su : Spec.Suite) (p : Options) (b0 sb : State) (ops : List Op)
    (res : List Event) (hs : Spec.suite p.crypter.ciphersuite = some su) (hb0 : Created L p b0)
    (hr : run L A b0 ops = .ok (sb, res)) (hv : ∀ op ∈ ops, Spec.ValidFrameArgs op)
    (hd : Spec.DirectionsDiffer L su p.crypter sb.evs) :
    (∀ c ∈ Spec.opens sb.evs, ∀ x ∈ Spec.seals sb.evs, x.call.key ≠ c.key) ∧
    ∀ evsA, Spec.Unforged evsA sb.evs → ∀ c ∈ Spec.opens sb.evs, ∃ x ∈ Spec.seals evsA,
      x.call.key = c.key ∧ x.call.nonce = c.nonce ∧ x.call.aad = c.aad ∧ x.text = c.data := by
  obtain ⟨_, _, _, cb, _, _, _, eb⟩ := created_inv hb0
  obtain ⟨rb, vb, b1, _, _⟩ := run_sim hA hv hr
  have heb : sb.evs = vb := by rw [b1.evs, eb]; rfl
  rw [heb] at hd ⊢
  exact Record.C98_accepted_from_the_peer_partial L su p.args b0.conn sb.conn rb vb hs cb b1.run
    (fun op h => (b1.valid op h).1) hd

/-- Witness: a protector sends, and receives a record of its peer. -/
example : ∃ sb res, run Lib.toy alloc rightS [.protect (fun _ => .none) [.buf [4]],
      .unprotect (fun _ => .none) [.buf (record 0 [1, 2, 23])]] = .ok (sb, res) ∧
    Spec.DirectionsDiffer Lib.toy Record.Demo.suite rightO.crypter sb.evs ∧
    (Spec.opens sb.evs).length = 1 ∧ (Spec.seals sb.evs).length = 1 := by
  refine ⟨_, _, rfl, ?_, by decide +kernel, by decide +kernel⟩
  have h : ∀ evs : List Record.Event, Spec.epochs (Record.outTrace evs) = 0 →
      Spec.epochs (Record.inTrace evs) = 0 →
      Spec.DirectionsDiffer Lib.toy Record.Demo.suite rightO.crypter evs := by
    intro evs h1 h2
    unfold Spec.DirectionsDiffer
    rw [h1, h2]; decide +kernel
  exact h _ (by decide +kernel) (by decide +kernel)

/-- But if the two directions are given the same secret and the same sequence number, a frame
protector is made nevertheless, and it accepts whatever it has sent itself: in every exchange
with a network that sends everything back, the next message to come back is delivered as if
the peer had sent it. -/
theorem C98_own_records_accepted (L : Lib) (A : Allocator) (hA : Spec.AllocOk A) (o : Options)
    (s0 s : State) (hc : Created L o s0) (hk : o.crypter.inSecret = o.crypter.outSecret)
    (hq : o.crypter.inSequence = o.crypter.outSequence) (w m : Bytes)
    (rest : List (Bytes × Bytes)) (he : Spec.Echo L A s0 s ((w, m) :: rest)) (ws : List Iovec)
    (hws : Spec.NonEmptyBufs ws) (hw : flat ws = w) (g : Nat → Record.Fault)
    (hg : ∀ i, g i = .none) :
    ∃ s' bufs, unprotect L A g s ws = .ok (s', ⟨.ok, bufs⟩) ∧ (bufs.map (·.2)).flatten = m := by
  have ok := (EchoOk.start hc hk hq).echo hA he
  obtain ⟨d, d', _, l2, l3⟩ := ok.link
  obtain ⟨s', bufs, _, e1, e2, _⟩ := l3.receive hA hg hws hw l2 ok.ready
  exact ⟨s', bufs, e1, e2⟩

/-- Options with the same secret for both directions. -/
def Demo.mirrorO : Options :=
  { leftO with crypter := { leftO.crypter with
      inSecret := leftO.crypter.outSecret, inSequence := leftO.crypter.outSequence } }

/-- What such a protector sent comes back and is delivered. -/
example : ∃ s0 s1 s2 w1 w2 i1 i2, Created Lib.toy mirrorO s0 ∧
    protect Lib.toy alloc (fun _ => .none) s0 [.buf [1, 2]] = .ok (s1, ⟨.ok, [(i1, w1)]⟩) ∧
    protect Lib.toy alloc (fun _ => .none) s1 [.buf [3]] = .ok (s2, ⟨.ok, [(i2, w2)]⟩) ∧
    Spec.Echo Lib.toy alloc s0 s2 [(w1, [1, 2]), (w2, [3])] ∧ Spec.NonEmptyBufs [.buf w1] ∧
    (match unprotect Lib.toy alloc (fun _ => .none) s2 [.buf w1] with
      | .ok (_, r) => decide (r.1 = .ok ∧ r.2.map (·.2) = [[1, 2]])
      | .error _ => false) = true := by
  have go : ∀ {s0 s1 s2 w1 w2 i1 i2},
      protect Lib.toy alloc (fun _ => .none) s0 [.buf [1, 2]] = .ok (s1, ⟨.ok, [(i1, w1)]⟩) →
      protect Lib.toy alloc (fun _ => .none) s1 [.buf [3]] = .ok (s2, ⟨.ok, [(i2, w2)]⟩) →
      Spec.Echo Lib.toy alloc s0 s2 [(w1, [1, 2]), (w2, [3])] := by
    intro s0 s1 s2 w1 w2 i1 i2 h1 h2
    refine .send (wire := [(_, _)]) (.send (wire := []) .start ?_ h1) ?_ h2
    all_goals (intro v hv; rw [List.mem_singleton.1 hv]; trivial)
  refine ⟨_, _, _, _, _, _, _, ⟨.none, .none, rfl⟩, rfl, rfl, go rfl rfl, ?_, ?_⟩
  · intro v hv
    rw [List.mem_singleton.1 hv]
    exact ⟨_, rfl, by decide +kernel⟩
  · decide +kernel

end Frame

namespace Proxy
open Demo
open Spec (lastStated wireTlsVersion wireCiphersuite)

/-- The proxy does not check it either: in every history, a result of the S2A with the same
secret and sequence number for both directions, otherwise usable, leads to such a frame
protector. -/
theorem C98_proxy_does_not_check (L : Lib) (o : Options) (opts : TlsOptions) (s : State)
    (evs : List Event) (h : Reach L o s evs) (ho : o.options = some opts)
    (hadr : opts.s2aAddress ≠ []) (r : Proto.SessionResult) (st : Proto.SessionState)
    (hl : Spec.lastStated evs = some r) (hst : r.state = some st) (cs : Ciphersuite)
    (su : Spec.Suite) (hv : Spec.wireTlsVersion .tls1_3 = some st.tlsVersion)
    (hcs : Spec.wireCiphersuite cs = some st.ciphersuite) (hsu : Spec.suite cs = some su)
    (hlen : st.outKey.length = su.hash.digestSize) (hk : st.inKey = st.outKey)
    (hq : st.inSequence = st.outSequence) :
    ∃ s' p fo, createFrameProtector L .none .none s = .ok (s', .ok p) ∧ Frame.Created L fo p ∧
      fo.crypter.inSecret = fo.crypter.outSecret ∧
      fo.crypter.inSequence = fo.crypter.outSequence := by
  obtain ⟨_, _, h3⟩ := C46_every_history L o opts s evs h ho .none .none
  obtain ⟨fac, _, he⟩ := (h3 r st hl hst).1 .tls1_3 cs hv hcs
  generalize hfo : Spec.usedOptions opts.s2aAddress fac st .tls1_3 cs r.localIdentity = fo at he
  have hgood : Spec.GoodArguments fo ∧ fo.crypter.inSecret = fo.crypter.outSecret ∧
      fo.crypter.inSequence = fo.crypter.outSequence := by
    rw [← hfo]
    unfold Spec.usedOptions
    cases r.localIdentity <;>
      exact ⟨⟨rfl, rfl, rfl, hadr, rfl, su, hsu, by simpa [Spec.protectorOptions, hk] using hlen, hlen⟩,
        by simp [Spec.protectorOptions, hk], by simp [Spec.protectorOptions, hq]⟩
  obtain ⟨g1, g2, g3⟩ := hgood
  have nf : ¬ Spec.LibraryFails .none := by
    rintro ((h | h | h) | (h | h | h) | h) <;> cases h
  rcases (Frame.C97_protector_creation L .none .none fo).1 with ⟨_, h⟩ | ⟨_, h | h⟩ | ⟨⟨p, hp⟩, _⟩
  · exact absurd g1 h
  · exact absurd h nf
  · exact absurd h nf
  rw [hp] at he
  cases hc : createFrameProtector L .none .none s with
  | error u => rw [hc] at he; cases he
  | ok x =>
    rw [hc] at he
    obtain ⟨s', y⟩ := x
    simp only [Except.map, Except.ok.injEq] at he
    subst he
    exact ⟨s', p, fo, rfl, ⟨.none, .none, hp⟩, g2, g3⟩

/-- Witness: the S2A gives the same key for both directions. -/
example : ∃ r st, lastStated (hist client [doneWith r]).2 = some r ∧ r.state = some st ∧
    runs client [doneWith r] = true ∧ opts.s2aAddress ≠ [] ∧
    st.inKey = st.outKey ∧ st.inSequence = st.outSequence ∧
    wireTlsVersion .tls1_3 = some st.tlsVersion ∧
    wireCiphersuite .aes128GcmSha256 = some st.ciphersuite ∧
    st.outKey.length = 32 :=
  ⟨{ result with state := some { state with inKey := state.outKey, inSequence := state.outSequence } },
    _, by decide +kernel, rfl, by decide +kernel, by decide +kernel, rfl, rfl, rfl, rfl,
    by decide +kernel⟩

end Proxy
end S2A
