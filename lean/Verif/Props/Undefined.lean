import Verif.Lemmas.Reader
import Verif.Lemmas.FrameSession
import Verif.Props.Handshake
/-
Exactly which handshake bytes are accepted, which are refused and which lead to undefined
behaviour, in every reachable state: the cases that the `_partial` theorem C29
(Props/Handshake.lean) leaves out.
-/
namespace S2A.Record
open HalfConn (AeadCall exec_bind_eq_ok bump At)
open Spec (Reader reader)
open Demo

set_option maxRecDepth 100000

/-! ## C29: handshake bytes cannot trigger undefined behaviour -/

/-- If a call of `Unprotect` on well-formed buffers is undefined, it is because of a shift by a
negative amount; the record was authentic and a handshake record, and `Spec.Reader` says that it
is undefined after the handshake records so far. -/
theorem C29_undefined_only (L : Lib) (a : CreateArgs) (s : Spec.Suite) (c : Conn)
    (evs : List Event) (f : Fault) (header : Iovec) (payload : List Iovec) (out : Iovec) (e : UB)
    (hs : Spec.suite a.ciphersuite = some s) (hr : Reach L a c evs) (hp : AllWF payload)
    (hw : out.WF) (h : unprotect L f c header payload out = .error e) :
    e = .negativeShift ∧ ∃ inner content r,
      (inPos L a s evs).open L header.bytes (flat payload) = some inner ∧
      Spec.unpad inner = some (content, Spec.handshakeType) ∧
      reader (handshakes evs) = some r ∧ r.hear content = none := by
  rcases unprotect_cases hr hs f header payload out hp hw with
    ⟨r', h1, _⟩ |
    ⟨hcn, hhd, hl1, hl2, hlt, hat, h1 | ⟨p', ob, ho1, ho2, ho3, ho4, ho5, h1⟩⟩
  · rw [h1] at h; cases h
  · rw [h1.1] at h; cases h
  · rw [h1] at h
    have hg : HalfConn.Good s ({ c with inC := bump c.inC } : Conn).inC :=
      HalfConn.bump_good (hr.good hs).1
    have hi : Inv a { c with inC := bump c.inC } (handshakes evs) :=
      Calm.inv (c := c) ⟨rfl, rfl, rfl, rfl, rfl, rfl, rfl, rfl⟩ hr.inv
    obtain ⟨r, k1, k2⟩ := hr.known
    rcases Classical.em (∀ content, Spec.unpad p' = some (content, Spec.handshakeType) →
      ∃ x, c.handler.process content = .ok x) with hall | hall
    · obtain ⟨x, hx⟩ := dispatch_total (L := L) (f := f.key) (c := { c with inC := bump c.inC })
        (call := some ⟨(inPos L a s evs).key L, (inPos L a s evs).nonce L, header.bytes,
          flat payload⟩) (p := p') (tail := ob.drop p'.length) hg hi hall
      rw [hx] at h; cases h
    · simp only [Classical.not_forall, not_exists] at hall
      obtain ⟨content, hu, hn⟩ := hall
      have hpr := k2.process hr.inv.tinv content
      cases hx : r.hear content with
      | some y =>
        obtain ⟨r', ok⟩ := y
        rw [hx] at hpr
        obtain ⟨h', res, e1, _⟩ := hpr
        exact absurd e1 (hn _)
      | none =>
        rw [hx] at hpr
        refine ⟨?_, p', content, r, ho1, hu, k1, hx⟩
        rw [dispatch_handshake _ _ _ _ _ _ hu] at h
        have hpr : c.handler.process content = .error .negativeShift := hpr
        rw [hpr] at h
        cases h
        rfl

/-- And conversely: on an open connection whose inbound keys have not failed, an authentic record
for which `Spec.Reader` says so is undefined. -/
theorem C29_undefined_if (L : Lib) (a : CreateArgs) (s : Spec.Suite) (c : Conn) (evs : List Event)
    (f : Fault) (payload : List Iovec) (ob inner content : Bytes) (r : Reader)
    (hs : Spec.suite a.ciphersuite = some s) (hr : Reach L a c evs) (hp : AllWF payload)
    (hcn : c.closeNotify = false) (hal : c.inC.alwaysFail = false) (hf : f.evp = .none)
    (hseq : (inPos L a s evs).seq < 2 ^ 64) (hl : (flat payload).length = inner.length + 16)
    (hi : inner.length ≤ 16385) (hob : inner.length ≤ ob.length)
    (hop : (inPos L a s evs).open L (Spec.recordHeader (flat payload).length) (flat payload) =
      some inner)
    (hu : Spec.unpad inner = some (content, Spec.handshakeType))
    (hk : reader (handshakes evs) = some r) (hn : r.hear content = none) :
    unprotect L f c (.buf (Spec.recordHeader (flat payload).length)) payload (.buf ob) =
      .error .negativeShift := by
  have hat : At L c.inC (inPos L a s evs) := by
    rcases hr.inAt hs with h | h
    · rw [h] at hal; cases hal
    · exact h
  have h1 : 1 ≤ inner.length := by
    cases inner with
    | nil => cases hu
    | cons => simp
  obtain ⟨call, e⟩ := unprotect_next (ob := ob) hat hseq hcn ⟨h1, hi⟩ hf hl hop rfl hp hob
  rw [e, dispatch_handshake _ _ _ _ _ _ hu]
  obtain ⟨r', k1, k2⟩ := hr.known
  rw [hk] at k1
  cases k1
  have hpr := k2.process hr.inv.tinv content
  rw [hn] at hpr
  have hpr : c.handler.process content = .error .negativeShift := hpr
  rw [hpr]
  rfl

/-- The hypotheses are met after a foreign message of two bytes that arrived in three records and
two stray bytes after it; the next two bytes are undefined, one would not be. -/
example : ∃ c evs, Reach Lib.toy rightArgs c evs ∧
    handshakes evs = [[13, 0, 0, 2, 9, 9], [1], [2, 3, 4], [5, 6]] ∧
    c.closeNotify = false ∧ c.inC.alwaysFail = false ∧
    reader (handshakes evs) = some (.stale true 2) ∧
    (Reader.stale true 2).hear [7, 8] = none ∧
    (Reader.stale true 2).hear [7] = some (.stale true 3, false) ∧
    ∃ payload, payload.length = [7, 8, 22].length + 16 ∧
      (inPos Lib.toy rightArgs suite evs).open Lib.toy (Spec.recordHeader payload.length) payload =
        some [7, 8, 22] ∧ Spec.unpad [7, 8, 22] = some ([7, 8], Spec.handshakeType) :=
  ⟨_, _, ⟨right, recvAll (pos 0) [[13, 0, 0, 2, 9, 9, 22], [1, 22], [2, 3, 4, 22], [5, 6, 22]],
      right_created, rfl⟩, by decide +kernel, by decide +kernel, by decide +kernel,
    by decide +kernel, by decide +kernel, by decide +kernel,
    ((pos 4).protect Lib.toy [7, 8, 22]).drop 5, by decide +kernel, by decide +kernel,
    by decide +kernel⟩

/-- Whenever `Unprotect` has decrypted a handshake record, `Spec.Reader` says whether it succeeds,
also after messages that were out of order; only a key update that fails in the crypto library
can make a difference. -/
theorem C29_every_handshake_record (L : Lib) (a : CreateArgs) (c c' : Conn) (evs : List Event)
    (f : Fault) (header : Iovec) (payload : List Iovec) (out : Iovec) (res : Result)
    (content : Bytes) (hr : Reach L a c evs)
    (h : unprotect L f c header payload out = .ok (c', res))
    (hc : res.record = some (content, Spec.handshakeType)) :
    ∃ r r' ok, reader (handshakes evs) = some r ∧ r.hear content = some (r', ok) ∧
      (res.code = .ok ↔ ok = true ∧ (res.rekey = none ∨ res.rekey = some .ok)) := by
  obtain ⟨r, k1, k2⟩ := hr.known
  rcases unprotect_shape h with ⟨g, _⟩ | ⟨i, call, p, tail, _, g⟩
  · rw [Result.record, g] at hc; cases hc
  · have hin := dispatch_inner g
    rw [Result.record, hin, Option.bind_some] at hc
    rw [dispatch_handshake _ _ _ _ _ _ hc] at g
    simp only [exec_bind_eq_ok] at g
    obtain ⟨⟨h', rs⟩, h3, ⟨c2, st, rekey⟩, h4, h5⟩ := g
    cases h5
    have hpr := k2.process hr.inv.tinv content
    cases hx : r.hear content with
    | none =>
      rw [hx] at hpr
      have hpr : c.handler.process content = .error .negativeShift := hpr
      rw [hpr] at h3; cases h3
    | some y =>
      obtain ⟨r', ok⟩ := y
      rw [hx] at hpr
      obtain ⟨h1, res1, e1, _, _, e4⟩ := hpr
      rw [e1] at h3
      cases h3
      refine ⟨r, r', ok, k1, hx, ?_⟩
      rcases handleResult_cases h4 with ⟨e, he, _, rfl, rfl⟩ |
        ⟨x, he, ⟨j, s, s1, _, rfl, rfl, _⟩ | ⟨j, _, rfl, hrk⟩⟩
      · subst he
        cases ok with
        | true => obtain ⟨y, hy⟩ := e4; cases hy
        | false => cases e4; simp
      · simp [s1]
      · subst he
        have hok : ok = true := by
          cases ok with
          | true => rfl
          | false => cases e4
        rw [hrk]
        simp only [hok, if_true, true_and]
        cases x.containsKeyUpdate <;> simp

/-- Three records out of order: the rest of the first, which begins with a foreign message, is
skipped, and so is a whole ticket; the empty record is accepted. -/
example : ∃ c e1 e2 r2 e3, Reach Lib.toy rightArgs c [e1, e2, e3] ∧ e2 = .opened r2 ∧
    handshakes [e1, e2, e3] = [[13, 0, 0, 0, 4, 0], [], [4, 0]] ∧
    reader [[13, 0, 0, 0, 4, 0]] = some (.stale true 0) ∧
    reader [[13, 0, 0, 0, 4, 0], [], [4, 0]] = some (.stale true 2) ∧ r2.code = .ok :=
  ⟨_, _, _, _, _, ⟨right, recvAll (pos 0) [[13, 0, 0, 0, 4, 0, 22], [22], [4, 0, 22]],
      right_created, rfl⟩, rfl, by decide +kernel, by decide +kernel, by decide +kernel,
    by decide +kernel⟩

end S2A.Record
