import Verif.Lemmas.Schema
import Verif.Props.Context
import Verif.Props.Proxy
/-
Messages that are malformed or have lost their end.
-/
namespace S2A
open Proto Wire
open Spec (WireMessage)

set_option maxRecDepth 100000

/-! ## C81: responses of the S2A that are malformed or have lost their end -/

/-- The decoder accepts exactly the byte strings of the protobuf grammar, with the fields that the
grammar gives them. -/
theorem C81_grammar (bs : Bytes) (fs : List Field) : decode bs = some fs ↔ WireMessage bs fs :=
  decode_iff

/-- What is read from a response and from the state of a session in it: for each number and each
string of bytes the last one in the message, cut to 32 bits where the protocol has 32, and a flag is
set if its number is not zero. -/
theorem C81_values (utf8 : Bytes → Bool) (bs : Bytes) (fs : List Field) (h : WireMessage bs fs) :
    (∀ resp, SessionResp.parse utf8 bs = some resp →
      resp.outFrames = Spec.lastBytes 2 fs ∧
      resp.bytesConsumed = Spec.lastNumber 3 fs % 2 ^ 32) ∧
    (∀ st, SessionState.parse bs = some st →
      st = ⟨Spec.lastNumber 1 fs % 2 ^ 32, Spec.lastNumber 2 fs % 2 ^ 32, Spec.lastNumber 3 fs,
        Spec.lastNumber 4 fs, Spec.lastBytes 5 fs, Spec.lastBytes 6 fs, Spec.lastNumber 9 fs,
        decide (Spec.lastNumber 10 fs ≠ 0)⟩) ∧
    (∀ st, SessionStatus.parse utf8 bs = some st →
      st = ⟨Spec.lastNumber 1 fs % 2 ^ 32, Spec.lastBytes 2 fs⟩) := by
  have hd := decode_iff.mpr h
  refine ⟨fun resp hp => ?_, fun st hp => ?_, fun st hp => ?_⟩
  · unfold SessionResp.parse at hp
    rw [hd] at hp
    simp only [Option.bind_eq_bind, Option.bind_some, Option.bind_eq_some_iff] at hp
    obtain ⟨li, _, r, _, s, _, h4⟩ := hp
    cases h4
    rw [lastBytes_eq, lastNumber_eq]
    exact ⟨rfl, rfl⟩
  · unfold SessionState.parse at hp
    rw [hd] at hp
    cases hp
    simp only [lastBytes_eq, lastNumber_eq]
    rfl
  · unfold SessionStatus.parse at hp
    rw [hd] at hp
    simp only [Option.bind_eq_bind, Option.bind_some] at hp
    split at hp
    · cases hp
    · cases hp
      simp only [lastBytes_eq, lastNumber_eq]
      rfl

/-- Witness: a flag written as 2, after one written as 0. -/
example : ∃ fs st, WireMessage [80, 0, 80, 2] fs ∧ SessionState.parse [80, 0, 80, 2] = some st ∧
    st.isHandshakeResumed = true :=
  ⟨_, _, decode_iff.mp rfl, rfl, rfl⟩

namespace Proxy

/-- Bytes that are not a message of the grammar are refused, and leave the proxy as it was. -/
theorem C81_malformed_refused (utf8 : Bytes → Bool) (s : State) (bs : Bytes)
    (h : ∀ fs, ¬ WireMessage bs fs) :
    ∃ c, c ≠ .ok ∧ getBytesForPeer (SessionResp.parse utf8) s (some bs) = (s, ⟨c, 0, none⟩) := by
  refine C44_failed_response _ s (some bs) (.inr (.inl ?_))
  cases hd : decode bs with
  | some fs => exact absurd (decode_iff.mp hd) (h fs)
  | none => simp only [Option.getD_some, SessionResp.parse, hd]; rfl

/-- A response whose status is its last field (as the S2A writes it), and that has lost its end,
however little, is refused, and leaves the proxy as it was. -/
theorem C81_cut_response (utf8 : Bytes → Bool) (s : State) (p t st : Bytes) (fs : List Field)
    (hm : WireMessage (p ++ t) (fs ++ [(5, .len st)])) (hno : ∀ b, (5, .len b) ∉ fs)
    (ht : t ≠ []) :
    ∃ c, c ≠ .ok ∧ getBytesForPeer (SessionResp.parse utf8) s (some p) = (s, ⟨c, 0, none⟩) := by
  cases hd : decode p with
  | none =>
    refine C81_malformed_refused utf8 s p fun gs hg => ?_
    rw [decode_iff.mpr hg] at hd
    cases hd
  | some gs =>
    obtain ⟨f, more, he⟩ := WireMessage.cut (decode_iff.mp hd) hm ht
    have hpre : gs <+: fs := by
      rcases List.eq_nil_or_concat (f :: more) with h0 | ⟨l, x, h0⟩
      · cases h0
      · rw [h0, List.concat_eq_append, ← List.append_assoc] at he
        exact ⟨l, (List.append_inj' he rfl).1.symm⟩
    have hl : lens 5 gs = [] := by
      refine List.filterMap_eq_nil_iff.mpr fun g hg => ?_
      obtain ⟨j, v⟩ := g
      by_cases hj : j = 5
      · subst hj
        cases v with
        | len b => exact absurd (hpre.subset hg) (hno b)
        | _ => rfl
      · simp [hj]
    cases hp : SessionResp.parse utf8 p with
    | none => exact C44_failed_response _ s (some p) (.inr (.inl hp))
    | some resp =>
      refine C44_failed_response _ s (some p) (.inr (.inr ⟨resp, hp, fun st hs => ?_⟩))
      unfold SessionResp.parse at hp
      rw [hd] at hp
      simp only [Option.bind_eq_bind, Option.bind_some, Option.bind_eq_some_iff] at hp
      obtain ⟨li, _, r, _, s5, h5, h4⟩ := hp
      rw [getSub_none _ _ _ hl] at h5
      cases h5
      cases h4
      cases hs

/-- The same for the serialisation of a response with a status. -/
theorem C81_cut_serialized (utf8 : Bytes → Bool) (s : State) (resp : SessionResp)
    (hl : resp.serialize.length < 2 ^ 64) (hc : resp.bytesConsumed < 2 ^ 64)
    (hs : resp.status ≠ none) (p : Bytes) (hp : p <+: resp.serialize) (hne : p ≠ resp.serialize) :
    ∃ c, c ≠ .ok ∧ getBytesForPeer (SessionResp.parse utf8) s (some p) = (s, ⟨c, 0, none⟩) := by
  obtain ⟨t, ht⟩ := hp
  obtain ⟨st, hst⟩ := Option.ne_none_iff_exists'.mp hs
  have hd : decode resp.serialize = some resp.fields := by
    refine decode_encode_short _ ?_ hl
    refine ok_append (ok_append (ok_append (ok_append ?_ ?_) ?_) ?_) ?_
    · exact ok_putOpt (by decide) (by decide)
    · exact ok_putBytes (by decide) (by decide)
    · exact ok_putNum (by decide) (by decide) hc
    · exact ok_putOpt (by decide) (by decide)
    · exact ok_putOpt (by decide) (by decide)
  have hm := decode_iff.mp hd
  rw [← ht] at hm
  unfold SessionResp.fields at hm
  rw [hst] at hm
  refine C81_cut_response utf8 s p t _ _ hm (fun b hb => ?_) (fun h0 => hne ?_)
  · simp only [List.mem_append] at hb
    rcases hb with ((hb | hb) | hb) | hb
    · cases hi : resp.localIdentity <;> simp [hi, putOpt] at hb
    · unfold putBytes at hb; split at hb <;> simp at hb
    · unfold putNum at hb; split at hb <;> simp at hb
    · cases hi : resp.result <;> simp [hi, putOpt] at hb
  · rw [← ht, h0, List.append_nil]

/-- Witness: the last byte of `done` is missing; all of it is accepted. -/
example : Demo.done.status ≠ none ∧ Demo.done.serialize.length < 2 ^ 64 ∧
    (getBytesForPeer (SessionResp.parse fun _ => true) (Demo.made Demo.client)
      (some Demo.done.serialize)).2.code = .ok ∧
    (getBytesForPeer (SessionResp.parse fun _ => true) (Demo.made Demo.client)
      (some Demo.done.serialize.dropLast)).2 = ⟨.internal, 0, none⟩ := by decide +kernel

end Proxy

/-! ## C82: serialized contexts that have lost their end -/

theorem prefix_single {α : Type} {a b gs : List α} (ha : a.length ≤ 1) (h : gs <+: a ++ b) :
    gs = [] ∨ ∃ gs', gs = a ++ gs' ∧ gs' <+: b := by
  match a, ha with
  | [], _ => exact .inr ⟨gs, rfl, h⟩
  | [x], _ =>
    cases gs with
    | nil => exact .inl rfl
    | cons y ys =>
      rw [List.singleton_append, List.cons_prefix_cons] at h
      obtain ⟨rfl, h⟩ := h
      exact .inr ⟨ys, rfl, h⟩

/-- The message of which only the first `k` fields are left. -/
def keep (k : Nat) (m : PContext) : PContext :=
  { applicationProtocol := if 0 < k then m.applicationProtocol else []
    tlsVersion := if 1 < k then m.tlsVersion else 0
    ciphersuite := if 2 < k then m.ciphersuite else 0
    peerIdentity := if 3 < k then m.peerIdentity else none
    localIdentity := if 4 < k then m.localIdentity else none
    peerCertFingerprint := if 5 < k then m.peerCertFingerprint else []
    localCertFingerprint := if 6 < k then m.localCertFingerprint else []
    isHandshakeResumed := if 7 < k then m.isHandshakeResumed else false }

theorem putBytes_len (i b) : (putBytes i b).length ≤ 1 := by unfold putBytes; split <;> simp
theorem putNum_len (i b) : (putNum i b).length ≤ 1 := by unfold putNum; split <;> simp
theorem putBool_len (i b) : (putBool i b).length ≤ 1 := by unfold putBool; split <;> simp
theorem putOpt_len (i b) : (putOpt i b).length ≤ 1 := by unfold putOpt; split <;> simp

theorem fields_prefix {m : PContext} {gs : List Field} (h : gs <+: m.fields) :
    ∃ k ≤ 8, gs = (keep k m).fields := by
  unfold PContext.fields at h
  simp only [List.append_assoc] at h
  rcases prefix_single (putBytes_len _ _) h with rfl | ⟨gs1, rfl, h1⟩
  · exact ⟨0, by decide, rfl⟩
  rcases prefix_single (putNum_len _ _) h1 with rfl | ⟨gs2, rfl, h2⟩
  · exact ⟨1, by decide, by simp [PContext.fields, keep, putBytes, putNum, putBool, putOpt]⟩
  rcases prefix_single (putNum_len _ _) h2 with rfl | ⟨gs3, rfl, h3⟩
  · exact ⟨2, by decide, by simp [PContext.fields, keep, putBytes, putNum, putBool, putOpt]⟩
  rcases prefix_single (putOpt_len _ _) h3 with rfl | ⟨gs4, rfl, h4⟩
  · exact ⟨3, by decide, by simp [PContext.fields, keep, putBytes, putNum, putBool, putOpt]⟩
  rcases prefix_single (putOpt_len _ _) h4 with rfl | ⟨gs5, rfl, h5⟩
  · exact ⟨4, by decide, by simp [PContext.fields, keep, putBytes, putNum, putBool, putOpt]⟩
  rcases prefix_single (putBytes_len _ _) h5 with rfl | ⟨gs6, rfl, h6⟩
  · exact ⟨5, by decide, by simp [PContext.fields, keep, putBytes, putNum, putBool, putOpt]⟩
  rcases prefix_single (putBytes_len _ _) h6 with rfl | ⟨gs7, rfl, h7⟩
  · exact ⟨6, by decide, by simp [PContext.fields, keep, putBytes, putNum, putBool, putOpt]⟩
  rw [← List.append_nil (putBool _ _)] at h7
  rcases prefix_single (putBool_len _ _) h7 with rfl | ⟨gs8, rfl, h8⟩
  · exact ⟨7, by decide, by simp [PContext.fields, keep, putBytes, putNum, putBool, putOpt]⟩
  · obtain rfl := List.prefix_nil.mp h8
    exact ⟨8, by decide, by simp [PContext.fields, keep]⟩


theorem PContext.decode_serialize (m : PContext) (hl : m.serialize.length < 2 ^ 64)
    (h2 : m.tlsVersion < 2 ^ 32) (h3 : m.ciphersuite < 2 ^ 32) :
    decode m.serialize = some m.fields := by
  refine decode_encode_short _ ?_ hl
  refine ok_append (ok_append (ok_append (ok_append (ok_append (ok_append (ok_append
    ?_ ?_) ?_) ?_) ?_) ?_) ?_) ?_
  · exact ok_putBytes (by decide) (by decide)
  · exact ok_putNum (by decide) (by decide) (by omega)
  · exact ok_putNum (by decide) (by decide) (by omega)
  · exact ok_putOpt (by decide) (by decide)
  · exact ok_putOpt (by decide) (by decide)
  · exact ok_putBytes (by decide) (by decide)
  · exact ok_putBytes (by decide) (by decide)
  · exact ok_putBool (by decide) (by decide)

theorem PContext.parse_congr {utf8 : Bytes → Bool} {a b : Bytes} (h : decode a = decode b) :
    PContext.parse utf8 a = PContext.parse utf8 b := by
  unfold PContext.parse; rw [h]

theorem keep_prefix (k : Nat) (m : PContext) : (keep k m).serialize <+: m.serialize := by
  have key : (keep k m).fields <+: m.fields := by
    match k with
    | 0 => exact ⟨_, rfl⟩
    | 1 => exact ⟨_, by simp only [PContext.fields, keep, List.append_assoc]; rfl⟩
    | 2 => exact ⟨_, by simp only [PContext.fields, keep, List.append_assoc]; rfl⟩
    | 3 => exact ⟨_, by simp only [PContext.fields, keep, List.append_assoc]; rfl⟩
    | 4 => exact ⟨_, by simp only [PContext.fields, keep, List.append_assoc]; rfl⟩
    | 5 => exact ⟨_, by simp only [PContext.fields, keep, List.append_assoc]; rfl⟩
    | 6 => exact ⟨_, by simp only [PContext.fields, keep, List.append_assoc]; rfl⟩
    | 7 => exact ⟨_, by simp only [PContext.fields, keep, List.append_assoc]; rfl⟩
    | k + 8 => exact ⟨[], by simp [PContext.fields, keep]⟩
  obtain ⟨t, ht⟩ := key
  refine ⟨encode t, ?_⟩
  show encode _ ++ encode t = encode _
  rw [← ht]
  simp [encode]

/-- The message of a context. -/
def messageOf (c : Context) (v n : Nat) : PContext :=
  { applicationProtocol := Spec.cut c.applicationProtocol
    tlsVersion := v
    ciphersuite := n
    peerIdentity := Util.identityToProto c.peerIdentity
    localIdentity := Util.identityToProto c.localIdentity
    peerCertFingerprint := Spec.cut c.peerCertFingerprint
    localCertFingerprint := Spec.cut c.localCertFingerprint
    isHandshakeResumed := c.isHandshakeResumed }

theorem serialize_message {c : Context} {b : Bytes} (hs : c.serialize false = .ok b) :
    ∃ v n, Spec.wireTlsVersion c.tlsVersion = some v ∧ Spec.wireCiphersuite c.ciphersuite = some n ∧
      b = (messageOf c v n).serialize := by
  unfold Context.serialize at hs
  rw [tlsVersionToProto_eq, ciphersuiteToProto_eq] at hs
  cases hv : Spec.wireTlsVersion c.tlsVersion with
  | none => simp [hv, bind, Except.bind, orFail] at hs
  | some v =>
    cases hc : Spec.wireCiphersuite c.ciphersuite with
    | none => simp [hv, hc, bind, Except.bind, orFail] at hs
    | some n =>
      simp only [hv, hc, orFail, bind, Except.bind, if_neg Bool.false_ne_true, Except.ok.injEq] at hs
      exact ⟨v, n, rfl, rfl, hs.symm⟩

theorem deserialize_keep (utf8 : Bytes → Bool) (c : Context) (v n k : Nat)
    (hv : Spec.wireTlsVersion c.tlsVersion = some v)
    (hc : Spec.wireCiphersuite c.ciphersuite = some n)
    (hb : (messageOf c v n).serialize.length < 2 ^ 64)
    (hp : Spec.Made c.peerIdentity) (hl : Spec.Made c.localIdentity)
    (hu : ∀ s ∈ [[], c.applicationProtocol, c.peerIdentity.value, c.localIdentity.value],
      utf8 (Spec.cut s) = true) :
    Context.deserialize utf8 (keep k (messageOf c v n)).serialize = .ok (Spec.shortened k c.cut) := by
  simp only [List.mem_cons, List.not_mem_nil, or_false, forall_eq_or_imp, forall_eq] at hu
  have h2 : (keep k (messageOf c v n)).tlsVersion < 2 ^ 32 := by
    have := wireTlsVersion_lt hv
    simp only [keep, messageOf]; split <;> omega
  have h3 : (keep k (messageOf c v n)).ciphersuite < 2 ^ 32 := by
    have := wireCiphersuite_lt hc
    simp only [keep, messageOf]; split <;> omega
  have hlen := (keep_prefix k (messageOf c v n)).length_le
  unfold Context.deserialize
  rw [PContext.parse_serialize utf8 _ (by omega) h2 h3]
  · have ev : Util.tlsVersionFromProto (keep k (messageOf c v n)).tlsVersion =
        .ok (if 1 < k then c.tlsVersion else .tls1_2) := by
      simp only [keep, messageOf]
      split
      · exact tlsVersionFromProto_wire hv
      · rfl
    have ec : Util.ciphersuiteFromProto (keep k (messageOf c v n)).ciphersuite =
        .ok (if 2 < k then c.ciphersuite else .aes128GcmSha256) := by
      simp only [keep, messageOf]
      split
      · exact ciphersuiteFromProto_wire hc
      · rfl
    simp only [ev, ec, bind, Except.bind, Spec.shortened, Context.cut, Except.ok.injEq]
    have e4 : Util.identityFromProto (keep k (messageOf c v n)).peerIdentity =
        if 3 < k then c.peerIdentity.cut else .empty := by
      simp only [keep, messageOf]
      split
      · exact identityFromProto_toProto hp
      · rfl
    have e5 : Util.identityFromProto (keep k (messageOf c v n)).localIdentity =
        if 4 < k then c.localIdentity.cut else .empty := by
      simp only [keep, messageOf]
      split
      · exact identityFromProto_toProto hl
      · rfl
    rw [e4, e5]
    rfl
  · simp only [keep, messageOf]
    split
    · exact hu.2.1
    · exact hu.1
  · intro p h s hs
    simp only [keep, messageOf] at h
    split at h
    · rw [identityToProto_eq] at h
      rw [wireIdentity_strings h s hs]
      exact hu.2.2.1
    · cases h
  · intro p h s hs
    simp only [keep, messageOf] at h
    split at h
    · rw [identityToProto_eq] at h
      rw [wireIdentity_strings h s hs]
      exact hu.2.2.2
    · cases h

/-- Exactly what becomes of a serialized context that has lost its end.  Cut inside a field, it is
refused.  Cut between two fields, it is accepted as a context in which all parts from some part on
have the value zero of the protocol; and this happens for each part. -/
theorem C82_cut_exact (utf8 : Bytes → Bool) (c : Context) (b : Bytes)
    (hs : c.serialize false = .ok b) (hb : b.length < 2 ^ 64)
    (hp : Spec.Made c.peerIdentity) (hl : Spec.Made c.localIdentity)
    (hu : ∀ s ∈ [[], c.applicationProtocol, c.peerIdentity.value, c.localIdentity.value],
      utf8 (Spec.cut s) = true) :
    (∀ p, p <+: b → (∀ fs, ¬ WireMessage p fs) →
      Context.deserialize utf8 p = .error .internal) ∧
    (∀ p fs, p <+: b → WireMessage p fs →
      ∃ k ≤ 8, Context.deserialize utf8 p = .ok (Spec.shortened k c.cut)) ∧
    ∀ k ≤ 8, ∃ p, p <+: b ∧ Context.deserialize utf8 p = .ok (Spec.shortened k c.cut) := by
  obtain ⟨v, n, hv, hc, rfl⟩ := serialize_message hs
  refine ⟨fun p _ hno => ?_, fun p fs hpre hw => ?_, fun k _ =>
    ⟨_, keep_prefix k _, deserialize_keep utf8 c v n k hv hc hb hp hl hu⟩⟩
  · have : PContext.parse utf8 p = none := by
      cases hd : decode p with
      | some fs => exact absurd (decode_iff.mp hd) (hno fs)
      | none => unfold PContext.parse; rw [hd]; rfl
    unfold Context.deserialize
    rw [this]
  · have hd := PContext.decode_serialize (messageOf c v n) hb (wireTlsVersion_lt hv)
      (wireCiphersuite_lt hc)
    obtain ⟨t, ht⟩ := hpre
    have hfs : fs <+: (messageOf c v n).fields := by
      rw [← ht] at hd
      by_cases h0 : t = []
      · subst h0
        rw [List.append_nil] at hd
        rw [WireMessage.unique hw (decode_iff.mp hd)]
        exact List.prefix_refl _
      · obtain ⟨f, more, he⟩ := WireMessage.cut hw (decode_iff.mp hd) h0
        exact ⟨f :: more, he.symm⟩
    obtain ⟨k, hk, he⟩ := fields_prefix hfs
    refine ⟨k, hk, ?_⟩
    rw [← deserialize_keep utf8 c v n k hv hc hb hp hl hu]
    have h2 : (keep k (messageOf c v n)).tlsVersion < 2 ^ 32 := by
      have := wireTlsVersion_lt hv
      simp only [keep, messageOf]; split <;> omega
    have h3 : (keep k (messageOf c v n)).ciphersuite < 2 ^ 32 := by
      have := wireCiphersuite_lt hc
      simp only [keep, messageOf]; split <;> omega
    have hlen := (keep_prefix k (messageOf c v n)).length_le
    have hk := PContext.decode_serialize (keep k (messageOf c v n)) (by omega) h2 h3
    unfold Context.deserialize
    rw [PContext.parse_congr ((decode_iff.mpr hw).trans (he ▸ hk.symm))]

/-- A serialized context that was cut inside a field is refused.  Missing for the property: one cut
between two fields, or of which nothing is left, is accepted (`C82_cut_accepted`); what comes
out is said by `C82_cut_exact`. -/
theorem C82_cut_inside_field_refused_partial (utf8 : Bytes → Bool) (p : Bytes)
    (h : ∀ fs, ¬ WireMessage p fs) : Context.deserialize utf8 p = .error .internal := by
  have : PContext.parse utf8 p = none := by
    cases hd : decode p with
    | some fs => exact absurd (decode_iff.mp hd) (h fs)
    | none => unfold PContext.parse; rw [hd]; rfl
  unfold Context.deserialize
  rw [this]

/-- The full property is false: of the context of a TLS 1.3 connection nothing is left, and it is
accepted as that of a TLS 1.2 connection with a peer without identity. -/
theorem C82_cut_accepted : ∃ (c : Context) (b p : Bytes), c.serialize false = .ok b ∧ p <+: b ∧ p ≠ b ∧
    c.tlsVersion = .tls1_3 ∧ c.peerIdentity ≠ .empty ∧ ∃ c' : Context,
    Context.deserialize (fun _ => true) p = .ok c' ∧ c'.tlsVersion = .tls1_2 ∧
    c'.peerIdentity = .empty :=
  ⟨demoContext, _, [], rfl, List.nil_prefix, by decide +kernel, rfl, by decide +kernel, _, rfl, rfl,
    rfl⟩

/-- Witness: `demoContext` without its last two bytes, and without its last byte. -/
example : ∃ b, demoContext.serialize false = .ok b ∧
    Context.deserialize (fun _ => true) b.dropLast.dropLast =
      .ok { demoContext with isHandshakeResumed := false } ∧
    (∀ fs, ¬ WireMessage b.dropLast fs) ∧
    Context.deserialize (fun _ => true) b.dropLast = .error .internal := by
  refine ⟨_, rfl, by decide +kernel, fun fs h => ?_, by decide +kernel⟩
  have h := decode_iff.mpr h
  have e : decode (List.dropLast _) = none := (by decide +kernel : decode
    (List.dropLast ((demoContext.serialize false).toOption.getD [])) = none)
  have := e.symm.trans h
  cases this

end S2A
