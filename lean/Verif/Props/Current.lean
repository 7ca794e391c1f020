import Verif.Lemmas.Current
import Verif.Lemmas.FrameReach
import Verif.Props.Demo
/-
C105: what an attacker finds who reads the memory of a connection.
-/
set_option maxRecDepth 100000
namespace S2A.Record

/-- **C105, the part that holds.**  Whatever has happened on a connection, each of its directions
that has not failed holds what its present secret and sequence number give, and nothing else: it is
what creating the direction anew with them gives.  Earlier secrets and the keys made from them are
not in it. -/
theorem C105_only_present_keys_partial (L : Lib) (a : CreateArgs) (c : Conn) (evs : List Event)
    (s : Spec.Suite) (hs : Spec.suite a.ciphersuite = some s) (hr : Reach L a c evs) :
    (c.outC.alwaysFail = false → HoldsOnly L a.ciphersuite (outPos L a s evs) c.outC) ∧
    (c.inC.alwaysFail = false → HoldsOnly L a.ciphersuite (inPos L a s evs) c.inC) := by
  have hg := hr.good hs
  refine ⟨fun h => ?_, fun h => ?_⟩
  · rcases hr.outAt hs with h' | h'
    · rw [h] at h'; cases h'
    · exact holdsOnly_of_at (suite_inj hg.2.suite hs) h'
  · rcases hr.inAt hs with h' | h'
    · rw [h] at h'; cases h'
    · exact holdsOnly_of_at (suite_inj hg.1.suite hs) h'

/-- **C105.**  So two connections cannot be told apart by the memory of a direction if their present
secrets and sequence numbers agree: not by what was sent, received or refused before, not by the
secrets they began with, and not by how many updates there have been. -/
theorem C105_history_leaves_no_trace (L : Lib) (a a' : CreateArgs) (c c' : Conn)
    (evs evs' : List Event) (s : Spec.Suite) (hs : Spec.suite a.ciphersuite = some s)
    (hs' : Spec.suite a'.ciphersuite = some s) (hr : Reach L a c evs) (hr' : Reach L a' c' evs') :
    (c.outC.alwaysFail = false → c'.outC.alwaysFail = false →
      outPos L a s evs = outPos L a' s evs' → c.outC = c'.outC) ∧
    (c.inC.alwaysFail = false → c'.inC.alwaysFail = false →
      inPos L a s evs = inPos L a' s evs' → c.inC = c'.inC) := by
  obtain ⟨h1, h2⟩ := C105_only_present_keys_partial L a c evs s hs hr
  obtain ⟨h1', h2'⟩ := C105_only_present_keys_partial L a' c' evs' s hs' hr'
  have he := suite_inj hs hs'
  refine ⟨fun f f' hp => ?_, fun f f' hp => ?_⟩
  · obtain ⟨n, e, q⟩ := h1 f
    obtain ⟨n', e', q'⟩ := h1' f'
    rw [he, hp, e'] at e
    cases e
    rw [q, q', hp]
  · obtain ⟨n, e, q⟩ := h2 f
    obtain ⟨n', e', q'⟩ := h2' f'
    rw [he, hp, e'] at e
    cases e
    rw [q, q', hp]

/-- **C105.**  What an update that reports success leaves, also in a direction that had failed
before: what creating the direction with the next secret gives.  (A direction that had failed keeps
the mark that it failed.)  First the update of the outbound key, then the update that a message of
the peer asks for. -/
theorem C105_update_replaces_all (L : Lib) (a : CreateArgs) (c c' : Conn) (evs : List Event)
    (s : Spec.Suite) (hs : Spec.suite a.ciphersuite = some s) (hr : Reach L a c evs) :
    (∀ f, updateOutboundKey L f c = .ok (c', .ok) →
      ∃ new, HalfConn.create L .none a.ciphersuite 0 (Spec.nextSecret L s.hash c.outC.secret) =
          .ok (.ok new) ∧
        c'.outC = { new with alwaysFail := c.outC.alwaysFail }) ∧
    (∀ f header payload out r, unprotect L f c header payload out = .ok (c', r) →
      r.rekey = some .ok →
      ∃ new, HalfConn.create L .none a.ciphersuite 0 (Spec.nextSecret L s.hash c.inC.secret) =
          .ok (.ok new) ∧
        c'.inC = { new with alwaysFail := c.inC.alwaysFail }) := by
  have hg := hr.good hs
  refine ⟨fun f hu => ?_, fun f header payload out r hu hk => ?_⟩
  · unfold updateOutboundKey at hu
    rw [HalfConn.exec_bind_eq_ok] at hu
    obtain ⟨⟨hc, st⟩, h1, h2⟩ := hu
    cases h2
    exact (updateKey_leaves hs hg.2 h1).1 rfl
  · obtain ⟨_, ⟨_, _, h⟩ | ⟨i, r', h1, ⟨h, _⟩ | ⟨st, h2, h3⟩⟩⟩ := unprotect_frame hu
    · rw [hk] at h; cases h
    · rw [hk] at h; cases h
    · rw [hk] at h2
      cases h2
      obtain ⟨e1, e2, e3, e4, _, _⟩ := decrypt_keeps h1
      have := (updateKey_leaves hs (decrypt_good hg.1 h1) h3).1 rfl
      rw [e2, e4] at this
      exact this

/-- **C105, where it fails.**  An update that reports failure leaves the old AEAD key where it was,
and the direction can no longer be used.  The secret is the old one or the next one: the next one if
the step of the update that replaces it went well. -/
theorem C105_failed_update_keeps_key (L : Lib) (a : CreateArgs) (c c' : Conn) (evs : List Event)
    (st : StatusCode) (s : Spec.Suite) (hs : Spec.suite a.ciphersuite = some s)
    (hr : Reach L a c evs) (hst : st ≠ .ok) :
    (∀ f, updateOutboundKey L f c = .ok (c', st) →
      c'.outC.alwaysFail = true ∧ c'.outC.aead = c.outC.aead ∧
        (c'.outC.secret = c.outC.secret ∨
          c'.outC.secret = Spec.nextSecret L s.hash c.outC.secret) ∧
        (f.advance = .none → c'.outC.secret = Spec.nextSecret L s.hash c.outC.secret)) ∧
    (∀ f header payload out r, unprotect L f c header payload out = .ok (c', r) →
      r.rekey = some st →
      c'.inC.alwaysFail = true ∧ c'.inC.aead = c.inC.aead ∧
        (c'.inC.secret = c.inC.secret ∨
          c'.inC.secret = Spec.nextSecret L s.hash c.inC.secret) ∧
        (f.key.advance = .none → c'.inC.secret = Spec.nextSecret L s.hash c.inC.secret)) := by
  have hg := hr.good hs
  refine ⟨fun f hu => ?_, fun f header payload out r hu hk => ?_⟩
  · unfold updateOutboundKey at hu
    rw [HalfConn.exec_bind_eq_ok] at hu
    obtain ⟨⟨hc, st'⟩, h1, h2⟩ := hu
    cases h2
    exact (updateKey_leaves hs hg.2 h1).2 hst
  · obtain ⟨_, ⟨_, _, h⟩ | ⟨i, r', h1, ⟨h, _⟩ | ⟨st', h2, h3⟩⟩⟩ := unprotect_frame hu
    · rw [hk] at h; cases h
    · rw [hk] at h; cases h
    · rw [hk] at h2
      cases h2
      obtain ⟨e1, e2, e3, e4, _, _⟩ := decrypt_keeps h1
      have := (updateKey_leaves hs (decrypt_good hg.1 h1) h3).2 hst
      rw [e1, e2] at this
      exact this

open Demo in
/-- **C105 is false as stated.**  The peer sends data and then asks for a new key; the object for
the new key cannot be made (no memory).  The connection now has the next secret, from which the old
key cannot be computed, and the direction is dead; but the key that opened the earlier record is
still in its memory. -/
theorem C105_counterexample :
    ∃ c r r2 call, Reach Lib.toy rightArgs c [.opened r, .opened r2] ∧
      r.code = .ok ∧ r.call = some call ∧
      r2.rekey = some .internal ∧ r2.code ≠ .ok ∧
      c.inC.alwaysFail = true ∧
      c.inC.secret = Spec.nextSecret Lib.toy .sha256 rightArgs.inSecret ∧
      c.inC.secret ≠ rightArgs.inSecret ∧
      c.inC.aead.key = call.key :=
  ⟨_, _, _, _, ⟨right, [recv (pos 0) [7, 8, 23], .unprotect { (.none : Fault) with key := ⟨.none, .none, .none, true⟩ } (.buf ((recordAt (pos 1) [24, 0, 0, 1, 0, 22]).take 5)) [.buf ((recordAt (pos 1) [24, 0, 0, 1, 0, 22]).drop 5)] (.buf (List.replicate 6 9))], right_created, rfl⟩,
    by decide +kernel, rfl, by decide +kernel, by decide +kernel, by decide +kernel,
    by decide +kernel, by decide +kernel, by decide +kernel⟩

open Demo in
/-- Witness for `C105_only_present_keys_partial`, `C105_history_leaves_no_trace` and
`C105_update_replaces_all`: a connection that was sent data and a request for a new key, and one that
was created with that new key; both directions of both work. -/
example :
    ∃ c r r2, Reach Lib.toy rightArgs c [.opened r, .opened r2] ∧ r2.rekey = some .ok ∧
      c.inC.alwaysFail = false ∧ c.outC.alwaysFail = false ∧
      inPos Lib.toy rightArgs suite [.opened r, .opened r2] =
        ⟨suite, Spec.nextSecret Lib.toy .sha256 rightArgs.inSecret, 0⟩ ∧
      ∃ c', Created Lib.toy { rightArgs with
          inSecret := Spec.nextSecret Lib.toy .sha256 rightArgs.inSecret, inSequence := 0 } c' ∧
        c'.inC = c.inC :=
  ⟨_, _, _, ⟨right, recvAll (pos 0) [[7, 8, 23], [24, 0, 0, 1, 0, 22]], right_created, rfl⟩,
    by decide +kernel, by decide +kernel, by decide +kernel, by decide +kernel,
    _, ⟨.none, .none, rfl⟩, by decide +kernel⟩

end S2A.Record

namespace S2A.Frame

/-- **C105.**  The same for a frame protector: of its two directions, each that has not failed holds
what its present secret and sequence number give. -/
theorem C105_frame_protector_partial (L : Lib) (A : Allocator) (o : Options) (s : State)
    (su : Spec.Suite) (hs : Spec.suite o.args.ciphersuite = some su) (hr : Reach L A o s) :
    (s.conn.outC.alwaysFail = false →
      Record.HoldsOnly L o.args.ciphersuite (Record.outPos L o.args su s.evs) s.conn.outC) ∧
    (s.conn.inC.alwaysFail = false →
      Record.HoldsOnly L o.args.ciphersuite (Record.inPos L o.args su s.evs) s.conn.inC) :=
  Record.C105_only_present_keys_partial L o.args s.conn s.evs su hs hr.conn.1

end S2A.Frame
