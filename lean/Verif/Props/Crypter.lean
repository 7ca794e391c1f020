import Verif.Lemmas.Reach
import Verif.Lemmas.Indep
import Verif.Lemmas.Safe
import Verif.Props.Demo
/-
Property theorems about one connection (`S2ACrypter`): C12, C13, C14-C17 and C33 for whole
connections, C19, C20, C21, C31, C57 and the connection part of C58.

`Reach L a c evs` (Lemmas/Reach.lean): a connection created with arguments `a` is in state
`c` after some history of calls, with any library failures, that produced the events `evs`.
`inPos L a s evs` is the position of the inbound direction after these events: initial
secret and sequence number moved on by every AEAD call and key update among the events.
-/
namespace S2A.Record
open HalfConn (AeadCall Good At bump blocked exec_bind_eq_ok)
open Demo

set_option maxRecDepth 10000

/-! ## C12: only authentic records are accepted -/

/-- If `Unprotect` returns OK, then the record header is the header of a record of that
length, the payload opens under the AEAD with the key and nonce of the current position and
the header as associated data, and it is application data, of which exactly the content
bytes are delivered, or a handshake record, of which nothing is delivered. -/
theorem C12_only_authentic (L : Lib) (a : CreateArgs) (s : Spec.Suite) (c c' : Conn)
    (evs : List Event) (f : Fault) (header : Iovec) (payload : List Iovec) (out : Iovec)
    (r : Result) (hs : Spec.suite a.ciphersuite = some s) (hr : Reach L a c evs)
    (hp : AllWF payload) (ho : out.WF)
    (h : unprotect L f c header payload out = .ok (c', r)) (hok : r.code = .ok) :
    ∃ inner content t, header = .buf (Spec.recordHeader (flat payload).length) ∧
      (inPos L a s evs).open L header.bytes (flat payload) = some inner ∧
      Spec.unpad inner = some (content, t) ∧
      ((t = Spec.appDataType ∧ r.written = content.length ∧
          r.out.bytes.take r.written = content) ∨
       (t = Spec.handshakeType ∧ r.written = 0)) := by
  rcases unprotect_cases hr hs f header payload out hp ho with
    ⟨r', h1, h2, _⟩ | ⟨hcn, hhd, hl1, hl2, hlt, hat, h1 | ⟨p, ob, ho1, ho2, ho3, ho4, ho5, h1⟩⟩
  · rw [h] at h1; cases h1; exact absurd hok h2
  · rw [h] at h1; cases h1.1; cases hok
  · rw [h] at h1
    rcases unpad_cases p with ⟨hu, _⟩ | ⟨content, t, k, ht, hpe, hu⟩
    · rw [dispatch_none _ _ _ _ _ _ hu] at h1; cases h1; cases hok
    refine ⟨p, content, t, hhd, ho1, hu, ?_⟩
    obtain ⟨_, hcl, hct, _⟩ := unpad_length hu
    by_cases t1 : t = Spec.alertType
    · rw [t1] at hu
      rw [dispatch_alert _ _ _ _ _ _ hu] at h1
      split at h1
      · cases h1; cases hok
      · split at h1 <;> (cases h1; cases hok)
    by_cases t2 : t = Spec.handshakeType
    · right
      rw [t2] at hu
      rw [dispatch_handshake _ _ _ _ _ _ hu] at h1
      symm at h1
      simp only [exec_bind_eq_ok] at h1
      obtain ⟨x, _, y, _, h2⟩ := h1
      cases h2
      exact ⟨t2, rfl⟩
    by_cases t3 : t = Spec.appDataType
    · left
      rw [t3] at hu
      rw [dispatch_appData _ _ _ _ _ _ hu] at h1
      symm at h1
      have hfin : r.written = content.length ∧ r.out = .buf (p ++ ob.drop p.length) := by
        split at h1
        · cases h1; cases hok
        · split at h1
          · simp only [exec_bind_eq_ok] at h1
            obtain ⟨x, _, h2⟩ := h1
            cases h2
            exact ⟨rfl, rfl⟩
          · cases h1; exact ⟨rfl, rfl⟩
      refine ⟨t3, hfin.1, ?_⟩
      rw [hfin.2, hfin.1]
      simp only [Iovec.bytes]
      rw [List.take_append_of_le_length (by omega), hct]
    · rw [dispatch_other _ _ _ _ _ _ hu t1 t2 t3] at h1
      cases h1; cases hok

/-- Alerts, too, are acted on only if they are authentic: the first close-notify report and
every other alert report come from a record that opens at the current position. -/
theorem C12_alerts_authentic (L : Lib) (a : CreateArgs) (s : Spec.Suite) (c c' : Conn)
    (evs : List Event) (f : Fault) (header : Iovec) (payload : List Iovec) (out : Iovec)
    (r : Result) (hs : Spec.suite a.ciphersuite = some s) (hr : Reach L a c evs)
    (hp : AllWF payload) (ho : out.WF)
    (h : unprotect L f c header payload out = .ok (c', r))
    (hal : (r.code = .alertCloseNotify ∧ c.closeNotify = false) ∨ r.code = .alertOther) :
    ∃ inner content, (inPos L a s evs).open L header.bytes (flat payload) = some inner ∧
      Spec.unpad inner = some (content, Spec.alertType) ∧
      (r.code = .alertCloseNotify ↔ content[1]? = some 0) := by
  rcases unprotect_cases hr hs f header payload out hp ho with
    ⟨r', h1, h2, _, _, _, _, h3, h4, _⟩ |
    ⟨hcn, hhd, hl1, hl2, hlt, hat, h1 | ⟨p, ob, ho1, ho2, ho3, ho4, ho5, h1⟩⟩
  · rw [h] at h1
    cases h1
    rcases hal with ⟨x, y⟩ | x
    · rw [h3.1 x] at y; cases y
    · exact absurd x h4
  · rw [h] at h1; cases h1.1; simp at hal
  · rw [h] at h1
    refine ⟨p, ?_⟩
    rcases unpad_cases p with ⟨hu, _⟩ | ⟨content, t, k, ht, hpe, hu⟩
    · rw [dispatch_none _ _ _ _ _ _ hu] at h1; cases h1; simp at hal
    by_cases t1 : t = Spec.alertType
    · rw [t1] at hu
      rw [dispatch_alert _ _ _ _ _ _ hu] at h1
      refine ⟨content, ho1, hu, ?_⟩
      split at h1
      · cases h1; simp at hal
      · split at h1
        · next hz => cases h1; simp [hz]
        · next hz => cases h1; simp [hz]
    by_cases t2 : t = Spec.handshakeType
    · rw [t2] at hu
      rw [dispatch_handshake _ _ _ _ _ _ hu] at h1
      symm at h1
      simp only [exec_bind_eq_ok] at h1
      obtain ⟨x, _, y, _, h2⟩ := h1
      cases h2
      simp only at hal
      split at hal <;> simp at hal
    by_cases t3 : t = Spec.appDataType
    · rw [t3] at hu
      rw [dispatch_appData _ _ _ _ _ _ hu] at h1
      symm at h1
      split at h1
      · cases h1; simp at hal
      · split at h1
        · simp only [exec_bind_eq_ok] at h1
          obtain ⟨x, _, h2⟩ := h1
          cases h2
          simp at hal
        · cases h1; simp at hal
    · rw [dispatch_other _ _ _ _ _ _ hu t1 t2 t3] at h1
      cases h1; simp at hal

/-- A data record, padded, received in three buffers of which one is empty. -/
example : ∃ c' r, unprotect Lib.toy .none right (.buf ((recordAt (pos 0) [7, 0, 23, 0]).take 5))
      [.buf (((recordAt (pos 0) [7, 0, 23, 0]).drop 5).take 3), .null 0,
       .buf ((recordAt (pos 0) [7, 0, 23, 0]).drop 8)] (.buf (zeros 6)) = .ok (c', r) ∧
      r.code = .ok ∧ r.written = 2 := ⟨_, _, rfl, by decide⟩

/-! ## C13: rejected records reveal no plaintext -/

/-- `Unprotect` reports bytes only with OK; without an AEAD call the output buffer is
unchanged or zeroed; and if there was an AEAD call, but the record is not authentic, is an
alert, or has a malformed inner plaintext (unknown content type or only zeros), then every
byte the decryption wrote into the buffer is zero again. -/
theorem C13_rejected_zeroed_partial (L : Lib) (a : CreateArgs) (s : Spec.Suite) (c c' : Conn)
    (evs : List Event) (f : Fault) (header : Iovec) (payload : List Iovec) (out : Iovec)
    (r : Result) (hs : Spec.suite a.ciphersuite = some s) (hr : Reach L a c evs)
    (hp : AllWF payload) (ho : out.WF)
    (h : unprotect L f c header payload out = .ok (c', r)) :
    (r.code ≠ .ok → r.written = 0) ∧
    (r.call = none → r.out = out ∨ r.out = out.setBytes (zeros out.len)) ∧
    ∀ d, d = inPos L a s evs → r.call ≠ none →
      (d.open L header.bytes (flat payload) = none → r.out = out.setBytes (zeros out.len)) ∧
      (∀ inner content t, d.open L header.bytes (flat payload) = some inner →
        Spec.unpad inner = some (content, t) → t ≠ Spec.handshakeType → t ≠ Spec.appDataType →
        r.out = out.setBytes (zeros out.len)) ∧
      (∀ inner, d.open L header.bytes (flat payload) = some inner → Spec.unpad inner = none →
        r.out = out.setBytes (zeros out.len) ∨
        r.out = out.setBytes (zeros inner.length ++ out.bytes.drop inner.length)) := by
  rcases unprotect_cases hr hs f header payload out hp ho with
    ⟨r', h1, h2, h3, h4, h5, h6, _⟩ |
    ⟨hcn, hhd, hl1, hl2, hlt, hat, h1 | ⟨p, ob, ho1, ho2, ho3, ho4, ho5, h1⟩⟩
  · rw [h] at h1
    cases h1
    exact ⟨fun _ => h3, fun _ => h6, fun _ _ hc => absurd h4 hc⟩
  · rw [h] at h1
    cases h1.1
    exact ⟨fun _ => rfl, fun _ => Or.inr rfl, fun d hd _ =>
      ⟨fun _ => rfl, fun _ _ _ _ _ _ _ => rfl, fun _ _ _ => Or.inl rfl⟩⟩
  · rw [h] at h1
    have hcall : r.call ≠ none := by
      rw [(dispatch_frame h1.symm).2.1]; simp
    subst ho2
    have hlen : (p ++ ob.drop p.length).length = ob.length := by simp; omega
    refine ⟨?_, fun hc => absurd hc hcall, ?_⟩
    · intro hnok
      rcases unpad_cases p with ⟨hu, _⟩ | ⟨content, t, k, ht, hpe, hu⟩
      · rw [dispatch_none _ _ _ _ _ _ hu] at h1; cases h1; rfl
      by_cases t1 : t = Spec.alertType
      · rw [t1] at hu
        rw [dispatch_alert _ _ _ _ _ _ hu] at h1
        split at h1
        · cases h1; rfl
        · split at h1 <;> (cases h1; rfl)
      by_cases t2 : t = Spec.handshakeType
      · rw [t2] at hu
        rw [dispatch_handshake _ _ _ _ _ _ hu] at h1
        symm at h1
        simp only [exec_bind_eq_ok] at h1
        obtain ⟨x, _, y, _, h2⟩ := h1
        cases h2
        rfl
      by_cases t3 : t = Spec.appDataType
      · rw [t3] at hu
        rw [dispatch_appData _ _ _ _ _ _ hu] at h1
        symm at h1
        split at h1
        · cases h1; rfl
        · split at h1
          · simp only [exec_bind_eq_ok] at h1
            obtain ⟨x, _, h2⟩ := h1
            cases h2
            exact absurd rfl hnok
          · cases h1; exact absurd rfl hnok
      · rw [dispatch_other _ _ _ _ _ _ hu t1 t2 t3] at h1
        cases h1; rfl
    · rintro d rfl _
      rw [ho1]
      refine ⟨by simp, ?_, ?_⟩
      · rintro inner content t ⟨⟩ hu t2 t3
        by_cases t1 : t = Spec.alertType
        · rw [t1] at hu
          rw [dispatch_alert _ _ _ _ _ _ hu, hlen] at h1
          split at h1
          · cases h1; rfl
          · split at h1 <;> (cases h1; rfl)
        · rw [dispatch_other _ _ _ _ _ _ hu t1 t2 t3, hlen] at h1
          cases h1; rfl
      · rintro inner ⟨⟩ hu
        right
        rw [dispatch_none _ _ _ _ _ _ hu] at h1
        cases h1
        rcases unpad_cases p with ⟨_, hz⟩ | ⟨content, t, k, ht, hpe, hu'⟩
        · simp only [Iovec.setBytes, Iovec.bytes, zeros, ← hz]
        · rw [hu] at hu'; cases hu'

/-- A forged record, and an alert: the buffer ends up zeroed. -/
example : ∃ c' r, unprotect Lib.toy .none right (.buf (Spec.recordHeader 18)) [.buf (zeros 18)]
    (.buf [1, 2, 3]) = .ok (c', r) ∧ r.call ≠ none ∧ r.out = .buf [0, 0, 0] :=
  ⟨_, _, rfl, by decide, by decide⟩
example : ∃ c' r, step Lib.toy right (recv (pos 0) [2, 40, 21]) = .ok (c', .opened r) ∧
    r.code = .alertOther ∧ r.out = .buf [0, 0, 0] := ⟨_, _, rfl, by decide, by decide⟩

/-- Outside the enumerated cases plaintext does stay behind: application data rejected
because a handshake message is incomplete remains readable in the buffer. -/
theorem C13_app_data_inside_handshake_keeps_plaintext :
    ∃ c e1 r, run Lib.toy right (recvAll (pos 0) [[4, 22], [11, 12, 13, 23]]) =
      .ok (c, [e1, .opened r]) ∧ r.code = .invalidRecord ∧ r.written = 0 ∧
      r.out = .buf [11, 12, 13, 23] := ⟨_, _, _, rfl, by decide, by decide, by decide⟩

/-! ## C14 - C17 for whole connections -/

/-- For every history of `Protect`, `Unprotect` and key-update calls, with any failures: in
either direction no two AEAD calls between the same two key updates use the same nonce. -/
theorem C14_connection_nonces_unique (L : Lib) (a : CreateArgs) (c : Conn) (evs : List Event)
    (hr : Reach L a c evs) :
    (Spec.epochNonces 0 (outTrace evs)).Nodup ∧ (Spec.epochNonces 0 (inTrace evs)).Nodup := by
  obtain ⟨s, hs⟩ := hr.suite
  obtain ⟨c0, ops, h1, h2⟩ := hr
  obtain ⟨a1, a2⟩ := h1.at hs
  obtain ⟨⟨o, e, b1, b2⟩, ⟨o', e', b3, b4⟩⟩ := run_project h2
  rw [← b2, ← b4]
  exact ⟨(HalfConn.nonces_inv 0 a2.good b1).1, (HalfConn.nonces_inv 0 a1.good b3).1⟩

/-- For every history: all AEAD calls in both directions follow the key schedule and nonce
construction of RFC 8446. -/
theorem C16_C17_connection_follows_rfc8446 (L : Lib) (a : CreateArgs) (s : Spec.Suite)
    (c : Conn) (evs : List Event) (hs : Spec.suite a.ciphersuite = some s)
    (hr : Reach L a c evs) :
    Spec.Follows L s a.outSecret 0 a.outSequence.toNat (outTrace evs) ∧
    Spec.Follows L s a.inSecret 0 a.inSequence.toNat (inTrace evs) := by
  obtain ⟨c0, ops, h1, h2⟩ := hr
  obtain ⟨a1, a2⟩ := h1.at hs
  obtain ⟨⟨o, e, b1, b2⟩, ⟨o', e', b3, b4⟩⟩ := run_project h2
  obtain ⟨fi, fo, h1⟩ := h1
  obtain ⟨_, _, _, _, g1, g2, _⟩ := create_inv h1
  have e1 := (half_created hs g1).2
  have e2 := (half_created hs g2).2
  rw [← b2, ← b4]
  constructor
  · exact HalfConn.follows_run 0 a2.good (by rw [e2]; exact ⟨rfl, rfl, rfl⟩) _
      (fun _ => by rw [e2]; rfl) b1
  · exact HalfConn.follows_run 0 a1.good (by rw [e1]; exact ⟨rfl, rfl, rfl⟩) _
      (fun _ => by rw [e1]; rfl) b3

/-- Two records, a key update from the peer, one more record, one outbound record: four
AEAD calls. -/
def demoHistory : List Op :=
  recvAll (pos 0) [[1, 23], [24, 0, 0, 1, 0, 22]] ++
  [recv ((pos 2).update Lib.toy) [2, 23],
   .protect .none .applicationData [.buf [1, 2]] (.buf (zeros 24))]

example : ∃ c evs, run Lib.toy right demoHistory = .ok (c, evs) ∧
    (outTrace evs).length = 1 ∧ (inTrace evs).length = 4 ∧ (inTrace evs)[2]? = some .rekey ∧
    (evs.all fun | .opened r => r.code == .ok | .sealed r => r.code == .ok | _ => false) := by
  refine ⟨_, _, rfl, by decide, by decide, by decide, by decide⟩

/-- Once the outbound sequence numbers are used up, every `Protect` that passes its argument
checks fails without calling the AEAD and changes nothing; before that (and without a failed
key update) it does call the AEAD. -/
theorem C15_protect_exhaustion (L : Lib) (a : CreateArgs) (s : Spec.Suite) (c : Conn)
    (evs : List Event) (hs : Spec.suite a.ciphersuite = some s) (hr : Reach L a c evs)
    (f : EvpFault) (rt : RecordType) (pt : List Iovec) (rb : Bytes) :
    ∃ c' r, protect L f c rt pt (.buf rb) = .ok (c', r) ∧
      ((outPos L a s evs).seq = 2 ^ 64 → c' = c ∧ r.call = none ∧ r.code ≠ .ok) ∧
      ((outPos L a s evs).seq < 2 ^ 64 → c.outC.alwaysFail = false →
        totalLen pt ≤ 16384 → totalLen pt + 22 ≤ rb.length → Spec.contentType rt ≠ none →
        r.call ≠ none) := by
  obtain ⟨c', r, h1, h2⟩ := protect_spec L f c rt pt rb (hr.good hs).2.nonce
  refine ⟨c', r, h1, ?_, ?_⟩
  · intro hq
    have hb : blocked c.outC = true := by
      rcases hr.outAt hs with hf | hat
      · exact blocked_of_alwaysFail hf
      · rw [hat.blocked]; simp [hq]
    rcases h2 with ⟨_, rfl, rfl⟩ | ⟨_, _, ⟨_, rfl, rfl⟩ | ⟨t, _, ⟨_, rfl, rfl⟩ | ⟨hb', _⟩⟩⟩
    · simp
    · simp
    · simp
    · rw [hb] at hb'; cases hb'
  · intro hq hf l1 l2 hrt
    rcases hr.outAt hs with hf' | hat
    · rw [hf] at hf'; cases hf'
    have hb := hat.not_blocked hq
    rcases h2 with ⟨h, _, _⟩ | ⟨_, _, ⟨h, _, _⟩ | ⟨t, _, ⟨h, _, _⟩ | ⟨_, _, h, _⟩⟩⟩
    · omega
    · exact absurd h hrt
    · rw [hb] at h; cases h
    · rw [h]; simp

/-- The same for `Unprotect`. -/
theorem C15_unprotect_exhaustion (L : Lib) (a : CreateArgs) (s : Spec.Suite) (c : Conn)
    (evs : List Event) (hs : Spec.suite a.ciphersuite = some s) (hr : Reach L a c evs)
    (f : Fault) (header : Iovec) (payload : List Iovec) (out : Iovec) (hp : AllWF payload)
    (ho : out.WF) (hq : (inPos L a s evs).seq = 2 ^ 64) :
    ∃ r, unprotect L f c header payload out = .ok (c, r) ∧ r.call = none ∧ r.code ≠ .ok := by
  rcases unprotect_cases hr hs f header payload out hp ho with
    ⟨r', h1, h2, h3, h4, _⟩ | ⟨hcn, hhd, hl1, hl2, hlt, hat, _⟩
  · exact ⟨r', h1, h4, h2⟩
  · omega

/-- A connection that starts at the last sequence number. -/
example : ∃ c evs r, Reach Lib.toy { leftArgs with outSequence := 0 - 1 } c evs ∧
    evs = [.sealed r] ∧ r.code = .ok ∧
    (outPos Lib.toy { leftArgs with outSequence := 0 - 1 } suite evs).seq = 2 ^ 64 :=
  ⟨_, _, _, ⟨_, [.protect .none .applicationData [.buf [1]] (.buf (zeros 23))],
    ⟨.none, .none, rfl⟩, rfl⟩, rfl, by decide, by decide⟩

/-! ## C33: a failed key update poisons the direction -/

/-- After a key update on the outbound direction failed, no later `Protect` succeeds or
calls the AEAD, whatever happens in between. -/
theorem C33_failed_outbound_update (L : Lib) (a : CreateArgs) (c c1 c2 : Conn)
    (evs evs2 : List Event) (f : KeyFault) (st : StatusCode) (ops : List Op)
    (hr : Reach L a c evs) (hu : updateOutboundKey L f c = .ok (c1, st)) (hst : st ≠ .ok)
    (h : run L c1 ops = .ok (c2, evs2)) :
    ∀ r, .sealed r ∈ evs2 → r.code ≠ .ok ∧ r.call = none := by
  obtain ⟨s, hs⟩ := hr.suite
  have hg := (hr.good hs).2
  obtain ⟨hc', st', k1, k2, k3, k4, k5⟩ := HalfConn.updateKey_spec L f s c.outC hg
  simp only [updateOutboundKey, k1, exec_bind_ok, exec_pure, Except.ok.injEq,
    Prod.mk.injEq] at hu
  obtain ⟨rfl, rfl⟩ := hu
  have hf := (k4 hst).1
  have main : ∀ (ops : List Op) (c1 c2 : Conn) (evs2 : List Event), Good s c1.outC →
      c1.outC.alwaysFail = true → run L c1 ops = .ok (c2, evs2) →
      ∀ r, .sealed r ∈ evs2 → r.code ≠ .ok ∧ r.call = none := by
    intro ops
    induction ops with
    | nil => intro c1 c2 evs2 _ _ h; cases h; simp
    | cons op ops ih =>
      intro c1 c2 evs2 hg hf h r hmem
      obtain ⟨d, ev, es, g1, g2, g3⟩ := run_cons h
      subst g3
      obtain ⟨⟨o, he, p1, _⟩, _⟩ := step_project g1
      have hd := (HalfConn.alwaysFail_run hg hf p1).1
      have hgd := HalfConn.run_good hg p1
      rcases List.mem_cons.1 hmem with hm | hm
      · subst hm
        cases op with
        | protect f rt pt rec =>
          simp only [step, exec_bind_eq_ok] at g1
          obtain ⟨⟨d', r'⟩, q1, q2⟩ := g1
          cases q2
          cases rec with
          | null n =>
            unfold protect at q1
            simp only at q1
            split at q1
            · cases q1; simp
            · split at q1
              · cases q1; simp
              · cases q1
          | buf rb =>
            obtain ⟨c', r'', z1, z2⟩ := protect_spec L f c1 rt pt rb hg.nonce
            rw [q1] at z1
            cases z1
            have hb := blocked_of_alwaysFail hf
            rcases z2 with ⟨_, _, rfl⟩ | ⟨_, _, ⟨_, _, rfl⟩ | ⟨t, _, ⟨_, _, rfl⟩ | ⟨hb', _⟩⟩⟩
            · simp
            · simp
            · simp
            · rw [hb] at hb'; cases hb'
        | unprotect f hdr pl out =>
          simp only [step, exec_bind_eq_ok] at g1
          obtain ⟨x, _, q2⟩ := g1
          cases q2
        | updateOutboundKey f =>
          simp only [step, exec_bind_eq_ok] at g1
          obtain ⟨x, _, q2⟩ := g1
          cases q2
      · exact ih d c2 es hgd hd g2 r hm
  exact main ops _ c2 evs2 k2 hf h

/-- After a key update of the inbound direction failed inside an `Unprotect`, no later
`Unprotect` of well-formed buffers succeeds or calls the AEAD. -/
theorem C33_failed_inbound_update (L : Lib) (a : CreateArgs) (c c1 c2 : Conn)
    (evs evs2 : List Event) (f f' : Fault) (header header' : Iovec) (payload payload' : List Iovec)
    (out out' : Iovec) (r : Result) (st : StatusCode) (ops : List Op)
    (hr : Reach L a c evs) (hu : unprotect L f c header payload out = .ok (c1, r))
    (hrk : r.rekey = some st) (hst : st ≠ .ok) (h : run L c1 ops = .ok (c2, evs2))
    (hp : AllWF payload') (ho : out'.WF) :
    r.code ≠ .ok ∧
    ∃ r', unprotect L f' c2 header' payload' out' = .ok (c2, r') ∧ r'.code ≠ .ok ∧
      r'.call = none := by
  obtain ⟨s, hs⟩ := hr.suite
  have hr1 : Reach L a c1 (evs ++ [.opened r]) :=
    hr.step (op := .unprotect f header payload out) (by simp [step, hu])
  have hr2 := hr1.run h
  obtain ⟨_, hfr⟩ := unprotect_frame hu
  rw [hrk] at hfr
  have hf1 : c1.inC.alwaysFail = true := by
    rcases hfr with ⟨_, _, h0⟩ | ⟨i, r', d1, ⟨h0, _⟩ | ⟨st', h0, d2⟩⟩
    · cases h0
    · cases h0
    · cases h0
      have hgi : Good s i := by
        have := HalfConn.step_good (op := .decrypt f.evp [header] payload out) (hr.good hs).1
          (L := L) (hc' := i) (ev := .aead r.call r'.status) (by simp [HalfConn.step, d1])
        exact this
      obtain ⟨hc', st', k1, k2, k3, k4, k5⟩ := HalfConn.updateKey_spec L f.key s i hgi
      rw [d2] at k1
      cases k1
      exact (k4 hst).1
  have hf2 : c2.inC.alwaysFail = true := by
    obtain ⟨_, ⟨o, e, p1, _⟩⟩ := run_project h
    exact (HalfConn.alwaysFail_run (hr1.good hs).1 hf1 p1).1
  constructor
  · intro hok
    -- a result with a failed key update is an error
    have key : ∀ (c : Conn) call pt w c' r, dispatch L f.key c call pt w = .ok (c', r) →
        r.rekey = some st → r.code ≠ .ok := by
      intro c call pt w c' r hd hk hok
      unfold dispatch at hd
      simp only [exec_bind_eq_ok] at hd
      obtain ⟨o, _, hd⟩ := hd
      cases o with
      | none => cases hd; cases hk
      | some x =>
        obtain ⟨n, t⟩ := x
        simp only at hd
        split at hd
        · split at hd
          · cases hd; cases hk
          · split at hd
            · cases hd
            · split at hd
              · cases hd; cases hk
              · cases hd; cases hk
        · split at hd
          · simp only [exec_bind_eq_ok] at hd
            obtain ⟨⟨h1, r1⟩, _, ⟨c2, st', rk⟩, h3, h4⟩ := hd
            simp only at h4
            split at h4
            · cases h4; cases hok
            · next hst' =>
              cases h4
              simp only at hk
              subst hk
              unfold handleResult at h3
              cases r1 with
              | error e => cases h3
              | ok r1 =>
                simp only at h3
                split at h3
                · simp only [exec_bind_eq_ok] at h3
                  obtain ⟨⟨i, st1⟩, _, h5⟩ := h3
                  simp only at h5
                  split at h5
                  · cases h5; simp at hst'
                  · next hs1 =>
                    simp only [exec_bind_eq_ok] at h5
                    obtain ⟨x, _, h6⟩ := h5
                    cases h6
                    exact hs1 hst
                · simp only [exec_bind_eq_ok] at h3
                  obtain ⟨x, _, h6⟩ := h3
                  cases h6
          · split at hd
            · split at hd
              · cases hd; cases hk
              · split at hd
                · simp only [exec_bind_eq_ok] at hd
                  obtain ⟨x, _, h6⟩ := hd
                  cases h6; cases hk
                · cases hd; cases hk
            · cases hd; cases hk
    unfold unprotect at hu
    split at hu
    · cases hu; cases hrk
    simp only at hu
    split at hu
    · cases hu; cases hrk
    split at hu
    · cases hu; cases hrk
    split at hu
    · cases hu; cases hrk
    simp only [exec_bind_eq_ok] at hu
    obtain ⟨⟨i, call, r'⟩, h1, h2⟩ := hu
    simp only at h2
    split at h2
    · simp only [exec_bind_eq_ok] at h2
      obtain ⟨z, _, h3⟩ := h2
      cases h3; cases hrk
    · split at h2
      · cases h2
      · exact key _ _ _ _ _ _ h2 hrk hok
  · rcases unprotect_cases hr2 hs f' header' payload' out' hp ho with
      ⟨r', h1, h2, h3, h4, _⟩ | ⟨hcn, hhd, hl1, hl2, hlt, hat, _⟩
    · exact ⟨r', h1, h2, h4⟩
    · rw [hat.live] at hf2; cases hf2

/-- The peer's key update arrives while the library fails to derive the new key. -/
example : ∃ c r, unprotect Lib.toy ⟨.none, { KeyFault.none with create := true }⟩ right
    (.buf ((recordAt (pos 0) [24, 0, 0, 1, 0, 22]).take 5))
    [.buf ((recordAt (pos 0) [24, 0, 0, 1, 0, 22]).drop 5)] (.buf (zeros 6)) = .ok (c, r) ∧
    r.rekey = some .internal := ⟨_, _, rfl, by decide⟩
example : ∃ c st, updateOutboundKey Lib.toy { KeyFault.none with create := true } right =
    .ok (c, st) ∧ st ≠ .ok := ⟨_, _, rfl, by decide⟩

/-! ## C19: close-notify is final -/

/-- After an `Unprotect` reported close-notify, every later `Unprotect`, whatever its input,
reports close-notify with zero bytes, makes no AEAD call, leaves the output buffer alone and
changes no state. -/
theorem C19_close_notify_final (L : Lib) (a : CreateArgs) (c c1 c2 : Conn)
    (evs evs2 : List Event) (f f' : Fault) (header header' : Iovec) (payload payload' : List Iovec)
    (out out' : Iovec) (r : Result) (ops : List Op)
    (hr : Reach L a c evs) (hp : AllWF payload) (ho : out.WF)
    (hu : unprotect L f c header payload out = .ok (c1, r)) (hcn : r.code = .alertCloseNotify)
    (h : run L c1 ops = .ok (c2, evs2)) :
    unprotect L f' c2 header' payload' out' =
      .ok (c2, ⟨.alertCloseNotify, 0, out', none, none, none⟩) ∧
    c2 = c1.withOut c2.outC := by
  obtain ⟨s, hs⟩ := hr.suite
  have h1 : c1.closeNotify = true := by
    by_cases hc : c.closeNotify = true
    · have : unprotect L f c header payload out = .ok (c, ⟨.alertCloseNotify, 0, out, none, none, none⟩) := by
        unfold unprotect; rw [if_pos hc]
      rw [this] at hu
      cases hu
      exact hc
    · rcases unprotect_cases hr hs f header payload out hp ho with
        ⟨r', h1, h2, _, _, _, _, h3, h4, _⟩ |
        ⟨_, hhd, hl1, hl2, hlt, hat, h1 | ⟨p, ob, ho1, ho2, ho3, ho4, ho5, h1⟩⟩
      · rw [hu] at h1
        cases h1
        exact absurd (h3.1 hcn) hc
      · rw [hu] at h1; cases h1.1; cases hcn
      · rw [hu] at h1
        rcases unpad_cases p with ⟨hu', _⟩ | ⟨content, t, k, ht, hpe, hu'⟩
        · rw [dispatch_none _ _ _ _ _ _ hu'] at h1; cases h1; cases hcn
        by_cases t1 : t = Spec.alertType
        · rw [t1] at hu'
          rw [dispatch_alert _ _ _ _ _ _ hu'] at h1
          split at h1
          · cases h1; cases hcn
          · split at h1
            · cases h1; rfl
            · cases h1; cases hcn
        by_cases t2 : t = Spec.handshakeType
        · rw [t2] at hu'
          rw [dispatch_handshake _ _ _ _ _ _ hu'] at h1
          symm at h1
          simp only [exec_bind_eq_ok] at h1
          obtain ⟨x, _, y, _, h2⟩ := h1
          cases h2
          simp only at hcn
          split at hcn <;> cases hcn
        by_cases t3 : t = Spec.appDataType
        · rw [t3] at hu'
          rw [dispatch_appData _ _ _ _ _ _ hu'] at h1
          symm at h1
          split at h1
          · cases h1; cases hcn
          · split at h1
            · simp only [exec_bind_eq_ok] at h1
              obtain ⟨x, _, h2⟩ := h1
              cases h2
              cases hcn
            · cases h1; cases hcn
        · rw [dispatch_other _ _ _ _ _ _ hu' t1 t2 t3] at h1
          cases h1; cases hcn
  have main : ∀ (ops : List Op) (c1 c2 : Conn) (evs2 : List Event), c1.closeNotify = true →
      run L c1 ops = .ok (c2, evs2) → c2 = c1.withOut c2.outC := by
    intro ops
    induction ops with
    | nil => intro c1 c2 evs2 _ h; cases h; rfl
    | cons op ops ih =>
      intro c1 c2 evs2 hcn h
      obtain ⟨d, ev, es, g1, g2, g3⟩ := run_cons h
      have hd : d = c1.withOut d.outC := by
        cases ho : op.isOut
        · cases op with
          | unprotect f hdr pl out =>
            simp only [step, unprotect, hcn, if_true, exec_bind_ok] at g1
            cases g1
            rfl
          | _ => cases ho
        · have := step_out L c1 c1 op ho rfl
          rw [g1] at this
          simp only [emap, Except.ok.injEq, Prod.mk.injEq, and_true] at this
          exact this
      have h2 := ih d c2 es (by rw [hd]; exact hcn) g2
      rw [hd] at h2
      exact h2
  have h2 := main ops c1 c2 evs2 h1 h
  refine ⟨?_, h2⟩
  unfold unprotect
  rw [if_pos (by rw [h2]; exact h1)]

/-- A close-notify alert, then an (authentic) data record. -/
example : ∃ c1 r, step Lib.toy right (recv (pos 0) [1, 0, 21]) = .ok (c1, .opened r) ∧
    r.code = .alertCloseNotify ∧
    ∃ c2, run Lib.toy c1 [recv (pos 1) [5, 23],
      .protect .none .applicationData [.buf [1]] (.buf (zeros 23))] = .ok c2 :=
  ⟨_, _, rfl, by decide, _, rfl⟩

/-! ## C20: record size limits -/

/-- `Protect` refuses a plaintext of more than 2^14 bytes and an output buffer of less than
22 bytes more than the plaintext, without any change. -/
theorem C20_protect_limits (L : Lib) (c : Conn) (f : EvpFault) (rt : RecordType)
    (pt : List Iovec) (rec : Iovec)
    (h : 2 ^ 14 < totalLen pt ∨ rec.len < totalLen pt + 22) :
    protect L f c rt pt rec = .ok (c, ⟨.failedPrecondition, 0, rec, none, none, none⟩) := by
  unfold protect
  have hm : kMaxPlaintext = 2 ^ 14 := rfl
  simp only []
  by_cases h1 : totalLen pt > kMaxPlaintext
  · rw [if_pos h1]
  · rw [if_neg h1, if_pos]
    rcases h with h | h
    · omega
    · exact h

/-- `Unprotect` refuses records with more than 2^14 + 17 payload bytes (in particular all
above RFC 8446's limit of 2^14 + 256), records without room for a type byte and a tag, and
records whose header does not announce the payload; without a change or an AEAD call. -/
theorem C20_unprotect_limits (L : Lib) (c : Conn) (f : Fault) (header : Iovec)
    (payload : List Iovec) (out : Iovec)
    (h : 2 ^ 14 + 17 < totalLen payload ∨ header.len + totalLen payload < 22 ∨
      header ≠ .buf (Spec.recordHeader (totalLen payload))) :
    ∃ r, unprotect L f c header payload out = .ok (c, r) ∧ r.code ≠ .ok ∧ r.written = 0 ∧
      r.call = none ∧ r.out = out := by
  unfold unprotect
  have hm : kMaxPlaintext = 2 ^ 14 := rfl
  by_cases hc : c.closeNotify = true
  · rw [if_pos hc]; exact ⟨_, rfl, by simp⟩
  rw [if_neg hc]
  simp only [recordOverhead_eq]
  by_cases h1 : header.len + totalLen payload < 22
  · rw [if_pos h1]; exact ⟨_, rfl, by simp⟩
  rw [if_neg h1]
  by_cases h2 : header.len + totalLen payload > 22 + kMaxPlaintext
  · rw [if_pos h2]; exact ⟨_, rfl, by simp⟩
  rw [if_neg h2]
  by_cases h3 : validateHeader header (header.len + totalLen payload) = true
  · have := (validateHeader_iff header (totalLen payload) (by omega)).1 h3
    rcases h with h | h | h
    · have : header.len = 5 := by rw [this]; rfl
      omega
    · omega
    · exact absurd this h
  · rw [if_pos (by simpa using h3)]
    exact ⟨_, rfl, by simp⟩

/-- Whatever record is accepted, at most 2^14 plaintext bytes come out. -/
theorem C20_plaintext_limit (L : Lib) (a : CreateArgs) (c c' : Conn) (evs : List Event)
    (f : Fault) (header : Iovec) (payload : List Iovec) (out : Iovec) (r : Result)
    (hr : Reach L a c evs) (hp : AllWF payload) (ho : out.WF)
    (h : unprotect L f c header payload out = .ok (c', r)) : r.written ≤ 2 ^ 14 := by
  obtain ⟨s, hs⟩ := hr.suite
  by_cases hok : r.code = .ok
  · obtain ⟨inner, content, t, h1, h2, h3, h4⟩ :=
      C12_only_authentic L a s c c' evs f header payload out r hs hr hp ho h hok
    obtain ⟨_, hl, _⟩ := unpad_length h3
    have := (Aead.aeadOpen_length h2)
    have hlim : totalLen payload ≤ 2 ^ 14 + 17 := by
      apply Nat.le_of_not_lt
      intro hgt
      obtain ⟨r', k1, k2, _⟩ := C20_unprotect_limits L c f header payload out (Or.inl hgt)
      rw [h] at k1
      cases k1
      exact k2 hok
    have := hp.totalLen_eq
    rcases h4 with ⟨_, h5, _⟩ | ⟨_, h5⟩
    · omega
    · omega
  · have := (C13_rejected_zeroed_partial L a s c c' evs f header payload out r hs hr hp ho h).1 hok
    omega

/-- One byte more than the limit; `C21_padding_removed` below covers records up to it. -/
example : ∃ c r, unprotect Lib.toy .none right (.buf (Spec.recordHeader 16402)) [.null 16402]
    (.buf []) = .ok (c, r) ∧ r.code = .alertRecordOverflow := ⟨_, _, rfl, by decide⟩
example : 2 ^ 14 < totalLen [.null 10000, .null 6385] := by decide

/-! ## C21: padding is removed exactly -/

/-- For every content, content type and amount of padding that fit into a record: the
application data record sealed at the current position is accepted and exactly the content is
delivered (in a state that accepts application data). -/
theorem C21_padding_removed (L : Lib) (a : CreateArgs) (s : Spec.Suite) (c : Conn)
    (evs : List Event) (content : Bytes) (padding : Nat) (payload : List Iovec) (ob : Bytes)
    (hs : Spec.suite a.ciphersuite = some s) (hr : Reach L a c evs)
    (hlive : c.inC.alwaysFail = false) (hq : (inPos L a s evs).seq < 2 ^ 64)
    (hcn : c.closeNotify = false) (hex : c.expecting = false)
    (hlen : content.length + padding ≤ 2 ^ 14) (hob : content.length + 1 + padding ≤ ob.length)
    (hp : AllWF payload)
    (hpay : Spec.recordHeader (content.length + padding + 17) ++ flat payload =
      (inPos L a s evs).protect L (Spec.innerPlaintext content Spec.appDataType padding)) :
    ∃ c' r, unprotect L .none c (.buf (Spec.recordHeader (content.length + padding + 17)))
        payload (.buf ob) = .ok (c', r) ∧
      r.code = .ok ∧ r.written = content.length ∧ r.out.bytes.take r.written = content := by
  have hfl := hp.totalLen_eq
  have hil : (Spec.innerPlaintext content Spec.appDataType padding).length =
      content.length + padding + 1 := by simp [Spec.innerPlaintext]; omega
  obtain ⟨inner, hinner⟩ : ∃ x, x = Spec.innerPlaintext content Spec.appDataType padding := ⟨_, rfl⟩
  rw [← hinner] at hpay hil
  simp only [Spec.Dir.protect, Spec.sealRecord, hil] at hpay
  rw [show content.length + padding + 1 + 16 = content.length + padding + 17 from rfl] at hpay
  have hpf := List.append_cancel_left hpay
  have hpl : (flat payload).length = content.length + padding + 17 := by
    rw [hpf, Aead.aeadSeal_length, hil]
  have hopen : (inPos L a s evs).open L (Spec.recordHeader (content.length + padding + 17))
      (flat payload) = some inner := by
    rw [hpf]; exact Aead.aeadOpen_aeadSeal ..
  rcases unprotect_spec L .none c (.buf (Spec.recordHeader (content.length + padding + 17)))
      payload (.buf ob) (hr.good hs).1.nonce hp trivial with ⟨h1, _⟩ | ⟨_, h⟩
  · rw [hcn] at h1; cases h1
  rcases hr.inAt hs with hf | hat
  · rw [hlive] at hf; cases hf
  have h5 : (Iovec.buf (Spec.recordHeader (content.length + padding + 17))).len = 5 := rfl
  have e2 : c.inC.aead.alg = (inPos L a s evs).suite.alg := hat.good.alg
  simp only [hat.key, hat.nonce hq, e2, hfl, hpl] at h
  rcases h with ⟨h, _⟩ | ⟨h, _⟩ | ⟨_, _, ⟨h, _⟩ | ⟨_, ⟨h, _⟩ | ⟨_, ⟨_, h⟩ | ⟨p, ob', g1, g2, g3, g4, g5, g6⟩⟩⟩⟩
  · omega
  · omega
  · exact absurd rfl h
  · rw [hat.not_blocked hq] at h; cases h
  · have := h rfl (by simp [Iovec.len]; omega)
    rw [Spec.Dir.open] at hopen
    rw [hopen] at this
    cases this
  · rw [Spec.Dir.open] at hopen
    rw [hopen] at g1
    cases g1
    cases g2
    rw [g6]
    have hu : Spec.unpad inner = some (content, Spec.appDataType) := by
      rw [hinner]; exact unpad_inner _ _ _ (by decide)
    obtain ⟨_, hcl, hct, _⟩ := unpad_length hu
    rw [dispatch_appData _ _ _ _ _ _ hu]
    simp only [hex, Bool.false_eq_true, if_false]
    have htk : List.take content.length (inner ++ List.drop inner.length ob) = content := by
      rw [List.take_append_of_le_length (by omega), hct]
    split
    · obtain ⟨c2, e, _⟩ := retrieveAndSend_safe
        (c := { c with inC := c.inC.bump, expecting := false }) hr.safe
      simp only [e, exec_bind_ok]
      exact ⟨_, _, rfl, rfl, rfl, htk⟩
    · exact ⟨_, _, rfl, rfl, rfl, htk⟩

/-- Unpadding inverts padding for every content type but zero, also if the content ends in
zeros; only an all-zero string has no content type. -/
theorem C21_unpad (content : Bytes) (t : UInt8) (padding : Nat) (ht : t ≠ 0) :
    Spec.unpad (Spec.innerPlaintext content t padding) = some (content, t) :=
  unpad_inner content t padding ht

theorem C21_all_zero_rejected (L : Lib) (a : CreateArgs) (s : Spec.Suite) (c c' : Conn)
    (evs : List Event) (f : Fault) (header : Iovec) (payload : List Iovec) (out : Iovec)
    (r : Result) (n : Nat) (hs : Spec.suite a.ciphersuite = some s) (hr : Reach L a c evs)
    (hp : AllWF payload) (ho : out.WF)
    (h : unprotect L f c header payload out = .ok (c', r))
    (hz : (inPos L a s evs).open L header.bytes (flat payload) = some (zeros n)) :
    r.code ≠ .ok := by
  intro hok
  obtain ⟨inner, content, t, h1, h2, h3, h4⟩ :=
    C12_only_authentic L a s c c' evs f header payload out r hs hr hp ho h hok
  rw [hz] at h2
  cases h2
  rcases unpad_cases (zeros n) with ⟨hu, _⟩ | ⟨content, t, k, ht, hpe, hu⟩
  · rw [h3] at hu; cases hu
  · have hm : t ∈ zeros n := by rw [hpe]; simp [Spec.innerPlaintext]
    simp [zeros] at hm
    exact ht hm.2

example : ∃ c r, step Lib.toy right (recv (pos 0) [0, 0, 23, 0, 0, 0]) = .ok (c, .opened r) ∧
    r.code = .ok ∧ r.written = 2 := ⟨_, _, rfl, by decide⟩
example : ∃ c r, step Lib.toy right (recv (pos 0) [0, 0, 0]) = .ok (c, .opened r) ∧
    r.code = .invalidRecord := ⟨_, _, rfl, by decide⟩

/-! ## C31: the two directions are independent -/

/-- Two interleavings of the same outbound calls and the same inbound calls give the same
results in each direction and the same final state. -/
theorem C31_interleaving_irrelevant (L : Lib) (c c1 : Conn) (ops1 ops2 : List Op)
    (e1 : List Event)
    (hout : ops1.filter Op.isOut = ops2.filter Op.isOut)
    (hin : ops1.filter (!·.isOut) = ops2.filter (!·.isOut))
    (h1 : run L c ops1 = .ok (c1, e1)) :
    ∃ e2, run L c ops2 = .ok (c1, e2) ∧ e2.filter Event.isOut = e1.filter Event.isOut ∧
      e2.filter (!·.isOut) = e1.filter (!·.isOut) := by
  obtain ⟨a1, a2⟩ := run_split h1 c c rfl rfl
  rw [hout] at a1
  rw [hin] at a2
  obtain ⟨⟨c2, e2⟩, hz⟩ := run_join (c := c) (cI := c) (cO := c) rfl rfl a1 a2
  obtain ⟨b1, b2⟩ := run_split hz c c rfl rfl
  rw [a1] at b1
  rw [a2] at b2
  simp only [Except.ok.injEq, Prod.mk.injEq] at b1 b2
  refine ⟨e2, ?_, b1.2.symm, b2.2.symm⟩
  rw [hz]
  congr 2
  have o1 : c1.outC = c2.outC := by
    have := congrArg Conn.outC b1.1
    exact this
  have o2 := b2.1
  have : c1 = (c1.withOut c.outC).withOut c1.outC := rfl
  rw [this, o2, o1]
  rfl

/-- Data received before or after a record is sent. -/
example : ∃ c e, run Lib.toy right [recv (pos 0) [1, 23],
    .protect .none .applicationData [.buf [1]] (.buf (zeros 23)), recv (pos 1) [2, 23]] =
    .ok (c, e) ∧ (e.filter Event.isOut).length = 1 ∧ (e.filter (!·.isOut)).length = 2 :=
  ⟨_, _, rfl, by decide, by decide⟩

/-! ## C57: lost, repeated and reordered records -/

/-- Let the peer have sealed a record at position `d` of the direction.  If, after any
history (with losses, repetitions, forgeries), exactly this record is accepted at the
receiver's current position, then the AEAD tag computed with the receiver's current key and
nonce equals the tag computed with the key and nonce of the position where the record was
sealed. -/
theorem C57_accepted_elsewhere_means_tag_collision (L : Lib) (a : CreateArgs) (s : Spec.Suite)
    (c c' : Conn) (evs : List Event) (f : Fault) (header : Iovec) (payload : List Iovec)
    (out : Iovec) (r : Result) (d : Spec.Dir) (inner : Bytes)
    (hs : Spec.suite a.ciphersuite = some s) (hr : Reach L a c evs)
    (hp : AllWF payload) (ho : out.WF)
    (hsent : header.bytes ++ flat payload = d.protect L inner)
    (h : unprotect L f c header payload out = .ok (c', r)) (hok : r.code = .ok) :
    ∃ ct tag, flat payload = ct ++ tag ∧ tag.length = 16 ∧
      L.mac s.alg ((inPos L a s evs).key L) ((inPos L a s evs).nonce L) header.bytes ct = tag ∧
      L.mac d.suite.alg (d.key L) (d.nonce L) header.bytes ct = tag := by
  obtain ⟨i, content, t, h1, h2, h3, h4⟩ :=
    C12_only_authentic L a s c c' evs f header payload out r hs hr hp ho h hok
  have hb : header.bytes.length = 5 := by rw [h1]; rfl
  simp only [Spec.Dir.protect, Spec.sealRecord] at hsent
  obtain ⟨e1, e2⟩ := List.append_inj hsent (by simp [hb])
  have hsuite : (inPos L a s evs).suite = s := HalfConn.after_suite _ _ _
  unfold Spec.Dir.open Spec.aeadOpen at h2
  rw [hsuite] at h2
  split at h2
  · cases h2
  · next hlen =>
    simp only at h2
    split at h2
    · next hmac =>
      refine ⟨(flat payload).take ((flat payload).length - 16),
        (flat payload).drop ((flat payload).length - 16), (List.take_append_drop _ _).symm,
        by simp; omega, hmac, ?_⟩
      rw [e1]
      have hl : (flat payload).length = inner.length + 16 := by
        rw [e2, Aead.aeadSeal_length]
      rw [hl, e2]
      simp only [Nat.add_sub_cancel, Spec.aeadSeal]
      rw [List.take_append_of_le_length (by rw [Aead.stream_length]; exact Nat.le_refl _),
        List.take_of_length_le (by rw [Aead.stream_length]; exact Nat.le_refl _)]
      rw [List.drop_append_of_le_length (by rw [Aead.stream_length]; exact Nat.le_refl _),
        List.drop_of_length_le (by rw [Aead.stream_length]; exact Nat.le_refl _)]
      rfl
    · cases h2

/-- Positions of one epoch have different nonces, so a replayed or displaced record of the
same epoch is accepted only if the tags under two different nonces are equal. -/
theorem C57_nonces_differ (L : Lib) (d : Spec.Dir) (q1 q2 : Nat)
    (hsuite : 0 < d.suite.hash.digestSize) (h1 : q1 < 2 ^ 64) (h2 : q2 < 2 ^ 64)
    (hne : q1 ≠ q2) :
    ({ d with seq := q1 } : Spec.Dir).nonce L ≠ ({ d with seq := q2 } : Spec.Dir).nonce L := by
  intro h
  unfold Spec.Dir.nonce at h
  exact hne (HalfConn.recordNonce_inj _ _ _
    (HalfConn.expandLabel_length _ _ _ _ _ hsuite) h1 h2 h)

/-- Every record for which the AEAD is called takes up one position of the direction,
accepted or not: afterwards the receiver accepts the data record sealed at the next position,
so a forged, replayed or displaced record costs exactly one position. -/
theorem C57_every_attempt_takes_a_position (L : Lib) (a : CreateArgs) (s : Spec.Suite)
    (c c' : Conn) (evs : List Event) (f : Fault) (header : Iovec) (payload : List Iovec)
    (out : Iovec) (r : Result) (content ob : Bytes) (payload' : List Iovec)
    (hs : Spec.suite a.ciphersuite = some s) (hr : Reach L a c evs)
    (h : unprotect L f c header payload out = .ok (c', r)) (hcall : r.call ≠ none)
    (hk : r.rekey = none) (hq : (inPos L a s evs).seq + 1 < 2 ^ 64)
    (hlive : c'.inC.alwaysFail = false) (hcn : c'.closeNotify = false)
    (hex : c'.expecting = false)
    (hlen : content.length ≤ 2 ^ 14) (hob : content.length + 1 ≤ ob.length)
    (hp : AllWF payload')
    (hpay : Spec.recordHeader (content.length + 17) ++ flat payload' =
      (inPos L a s evs).next.protect L (Spec.innerPlaintext content Spec.appDataType 0)) :
    inPos L a s (evs ++ [.opened r]) = (inPos L a s evs).next ∧
    ∃ c2 r2, unprotect L .none c' (.buf (Spec.recordHeader (content.length + 17)))
        payload' (.buf ob) = .ok (c2, r2) ∧
      r2.code = .ok ∧ r2.written = content.length ∧ r2.out.bytes.take r2.written = content := by
  have happ : ∀ e1 e2, inTrace (e1 ++ e2) = inTrace e1 ++ inTrace e2 := by
    intro e1 e2
    induction e1 with
    | nil => rfl
    | cons e es ih => rw [List.cons_append, inTrace_cons, ih, inTrace_cons e es, List.append_assoc]
  have hpos : inPos L a s (evs ++ [.opened r]) = (inPos L a s evs).next := by
    unfold inPos
    rw [happ, HalfConn.after_append]
    obtain ⟨call, hcl⟩ := Option.ne_none_iff_exists'.1 hcall
    simp [inTrace, Result.uses, hcl, hk, Spec.Dir.after]
  refine ⟨hpos, ?_⟩
  have hr' : Reach L a c' (evs ++ [.opened r]) :=
    hr.step (op := .unprotect f header payload out) (by simp [step, h])
  rw [← hpos] at hpay
  exact C21_padding_removed L a s c' _ content 0 payload' ob hs hr' hlive
    (by rw [hpos]; exact hq) hcn hex (by omega) (by omega) hp hpay

/-- A replay on the toy library: refused, and the record after it is still accepted. -/
example : ∃ c r1 r2 r3, run Lib.toy right [recv (pos 0) [1, 23], recv (pos 0) [1, 23],
    recv (pos 2) [3, 23]] = .ok (c, [.opened r1, .opened r2, .opened r3]) ∧
    r1.code = .ok ∧ r2.code = .internalError ∧ r3.code = .ok :=
  ⟨_, _, _, _, rfl, by decide, by decide, by decide⟩

/-! ## C58: creation parameters -/

/-- A connection is created only with a non-empty address, a logger, a ticket sender, TLS
1.3, a known ciphersuite and traffic secrets of that suite's size; and with these it is
created if the library does not fail. -/
theorem C58_connection_creation (L : Lib) (fIn fOut : KeyFault) (a : CreateArgs) :
    ∃ res, create L fIn fOut a = .ok res ∧
      (∀ c, res = .ok c → a.url ≠ [] ∧ a.hasLogger = true ∧ a.hasSender = true ∧
        a.tlsVersion = .tls1_3 ∧ ∃ s, Spec.suite a.ciphersuite = some s ∧
          a.inSecret.length = s.hash.digestSize ∧ a.outSecret.length = s.hash.digestSize) ∧
      (∀ e, res = .error e → e ≠ .ok) ∧
      (∀ s, fIn = .none → fOut = .none → a.url ≠ [] → a.hasLogger = true →
        a.hasSender = true → a.tlsVersion = .tls1_3 → Spec.suite a.ciphersuite = some s →
        a.inSecret.length = s.hash.digestSize → a.outSecret.length = s.hash.digestSize →
        ∃ c, res = .ok c) := by
  obtain ⟨ri, i1, i2, i3, i4⟩ := HalfConn.create_spec L fIn a.ciphersuite a.inSequence a.inSecret
  obtain ⟨ro, o1, o2, o3, o4⟩ := HalfConn.create_spec L fOut a.ciphersuite a.outSequence a.outSecret
  unfold create
  by_cases h1 : a.url.isEmpty = true
  · rw [if_pos h1]
    refine ⟨_, rfl, by simp, by simp, ?_⟩
    intro s _ _ h; simp at h1; exact absurd h1 h
  rw [if_neg h1]
  by_cases h2 : (!a.hasLogger) = true
  · rw [if_pos h2]
    refine ⟨_, rfl, by simp, by simp, ?_⟩
    intro s _ _ _ h; simp [h] at h2
  rw [if_neg h2]
  by_cases h3 : (!a.hasSender) = true
  · rw [if_pos h3]
    refine ⟨_, rfl, by simp, by simp, ?_⟩
    intro s _ _ _ _ h; simp [h] at h3
  rw [if_neg h3]
  by_cases h4 : a.tlsVersion ≠ .tls1_3
  · rw [if_pos h4]
    refine ⟨_, rfl, by simp, by simp, ?_⟩
    intro s _ _ _ _ _ h; exact absurd h h4
  rw [if_neg h4, i1, exec_bind_ok]
  cases ri with
  | error e =>
    refine ⟨_, rfl, by simp, ?_, ?_⟩
    · rintro e' ⟨⟩; exact i3 e rfl
    · intro s hf _ _ _ _ _ hs hl _
      have := i4 s hf hs hl
      cases this
  | ok i =>
    simp only [o1, exec_bind_ok]
    cases ro with
    | error e =>
      refine ⟨_, rfl, by simp, ?_, ?_⟩
      · rintro e' ⟨⟩; exact o3 e rfl
      · intro s _ hf _ _ _ _ hs _ hl
        have := o4 s hf hs hl
        cases this
    | ok o =>
      refine ⟨_, rfl, ?_, by simp, fun _ _ _ _ _ _ _ _ _ _ => ⟨_, rfl⟩⟩
      intro _ _
      obtain ⟨s, a1, a2, _⟩ := i2 i rfl
      obtain ⟨s', b1, b2, _⟩ := o2 o rfl
      rw [a1] at b1
      cases b1
      exact ⟨by simpa using h1, by simpa using h2, by simpa using h3, by simpa using h4,
        s, a1, a2, b2⟩

example : ∃ c, create Lib.toy .none .none leftArgs = .ok (.ok c) := ⟨_, rfl⟩
example : create Lib.toy .none .none { leftArgs with outSecret := zeros 31 } =
    .ok (.error .invalidArgument) := rfl

end S2A.Record
