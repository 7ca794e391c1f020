import Verif.Lemmas.GroupsProto
import Verif.Lemmas.GroupsRefused
import Verif.Props.Wire
/-
Messages with groups in them, and the limits on tags, lengths and nesting.
-/
namespace S2A.Upb
open Wire Proto
open S2A.Spec (WireMessage)
open S2A.Spec.Upb (IsTag IsField Message IsGroup Refused plain)
open Proxy (State getBytesForPeer C44_failed_response)

set_option maxRecDepth 100000

/-! ## C118: groups, and the limits of the decoder -/

/-- The decoder accepts exactly the messages of the grammar, with the fields the grammar gives
them. -/
theorem C118_grammar (d : Nat) (bs : Bytes) (fs : List Field) :
    decode d bs = some fs ↔ Message d bs fs := decode_iff

/-- Witness: field 3 is 7, then a group with number 1 in which field 3 is 8; the same without a
level for the group. -/
example : Message 1 [24, 7, 11, 24, 8, 12] [(3, .varint 7)] ∧
    ∀ fs, ¬ Message 0 [24, 7, 11, 24, 8, 12] fs := by
  refine ⟨decode_iff.mp (by decide +kernel), fun fs h => ?_⟩
  have := decode_iff.mpr h
  rw [show decode 0 [24, 7, 11, 24, 8, 12] = none by decide +kernel] at this
  cases this

/-- What is read from a response, from the state of a session and from its status: for each number
and each string of bytes the last one outside the groups. -/
theorem C118_values (utf8 : Bytes → Bool) (d : Nat) (bs : Bytes) (fs : List Field)
    (h : Message d bs fs) :
    (∀ resp, d = 64 → parseResp utf8 bs = some resp →
      resp.outFrames = Spec.lastBytes 2 fs ∧
      resp.bytesConsumed = Spec.lastNumber 3 fs % 2 ^ 32) ∧
    (∀ st, sessionState decode d bs = some st →
      st = ⟨Spec.lastNumber 1 fs % 2 ^ 32, Spec.lastNumber 2 fs % 2 ^ 32, Spec.lastNumber 3 fs,
        Spec.lastNumber 4 fs, Spec.lastBytes 5 fs, Spec.lastBytes 6 fs, Spec.lastNumber 9 fs,
        decide (Spec.lastNumber 10 fs ≠ 0)⟩) ∧
    (∀ st, sessionStatus decode utf8 d bs = some st →
      st = ⟨Spec.lastNumber 1 fs % 2 ^ 32, Spec.lastBytes 2 fs⟩) := by
  have hd := decode_iff.mpr h
  refine ⟨fun resp h64 hp => ?_, fun st hp => ?_, fun st hp => ?_⟩
  · subst h64
    unfold parseResp maxDepth sessionResp at hp
    rw [hd] at hp
    simp only [Option.bind_eq_bind, Option.bind_some, Option.bind_eq_some_iff] at hp
    obtain ⟨li, _, r, _, s, _, h4⟩ := hp
    cases h4
    rw [lastBytes_eq, lastNumber_eq]
    exact ⟨rfl, rfl⟩
  · unfold sessionState at hp
    rw [hd] at hp
    cases hp
    simp only [lastBytes_eq, lastNumber_eq]
    rfl
  · unfold sessionStatus at hp
    rw [hd] at hp
    simp only [Option.bind_eq_bind, Option.bind_some] at hp
    split at hp
    · cases hp
    · cases hp
      simp only [lastBytes_eq, lastNumber_eq]
      rfl

/-- Witness: the 8 in the group is not what counts. -/
example : ∃ fs resp, Message 64 [24, 7, 11, 24, 8, 12] fs ∧
    parseResp (fun _ => true) [24, 7, 11, 24, 8, 12] = some resp ∧ resp.bytesConsumed = 7 :=
  ⟨[(3, .varint 7)], ⟨none, [], 7, none, none⟩, decode_iff.mp (by decide +kernel),
    by decide +kernel, rfl⟩

theorem parseResp_congr {utf8 : Bytes → Bool} {a b : Bytes} (h : decode 64 a = decode 64 b) :
    parseResp utf8 a = parseResp utf8 b := by
  unfold parseResp maxDepth sessionResp; rw [h]

theorem parseContext_congr {utf8 : Bytes → Bool} {a b : Bytes} (h : decode 64 a = decode 64 b) :
    parseContext utf8 a = parseContext utf8 b := by
  unfold parseContext maxDepth context; rw [h]

/-- A group between two fields of a response changes nothing, and no more does one in a serialized
context.  `a` is what comes before the group, `b` what comes after it; something must be left
without it. -/
theorem C118_groups_skipped (utf8 : Bytes → Bool) (s : State) (a g b : Bytes) (fs : List Field)
    (ha : Message 64 a fs) (hg : IsGroup 64 g) :
    (a ++ b ≠ [] → getBytesForPeer (parseResp utf8) s (some (a ++ g ++ b)) =
      getBytesForPeer (parseResp utf8) s (some (a ++ b))) ∧
    deserialize utf8 (a ++ g ++ b) = deserialize utf8 (a ++ b) := by
  have h : decode 64 (a ++ g ++ b) = decode 64 (a ++ b) := by
    rw [List.append_assoc, decode_append ha, decode_group hg, decode_append ha]
  refine ⟨fun hne => ?_, by unfold deserialize; rw [parseContext_congr h]⟩
  have hne' : a ++ g ++ b ≠ [] := by
    intro h0
    simp only [List.append_eq_nil_iff] at h0
    exact hne (by simp [h0.1.1, h0.2])
  have e1 : ((a ++ g ++ b == []) = false) := by simpa using hne'
  have e2 : ((a ++ b == []) = false) := by simpa using hne
  unfold getBytesForPeer
  simp only [Option.getD_some, parseResp_congr h, e1, e2]

/-- The same for the messages inside a response: an identity, a result, the state and the status of
a session, with `d` levels left for groups. -/
theorem C118_groups_skipped_inside (utf8 : Bytes → Bool) (d : Nat) (a g b : Bytes)
    (fs : List Field) (ha : Message d a fs) (hg : IsGroup d g) :
    identity decode utf8 d (a ++ g ++ b) = identity decode utf8 d (a ++ b) ∧
    sessionResult decode utf8 d (a ++ g ++ b) = sessionResult decode utf8 d (a ++ b) ∧
    sessionState decode d (a ++ g ++ b) = sessionState decode d (a ++ b) ∧
    sessionStatus decode utf8 d (a ++ g ++ b) = sessionStatus decode utf8 d (a ++ b) := by
  have h : decode d (a ++ g ++ b) = decode d (a ++ b) := by
    rw [List.append_assoc, decode_append ha, decode_group hg, decode_append ha]
  unfold identity sessionResult sessionState sessionStatus
  rw [h]
  exact ⟨rfl, rfl, rfl, rfl⟩

/-- Witness: a group in the status of a response. -/
example : parseResp (fun _ => true) [42, 4, 8, 1, 11, 12] = some ⟨none, [], 0, none, some ⟨1, []⟩⟩ ∧
    parseResp (fun _ => true) [42, 2, 8, 1] = some ⟨none, [], 0, none, some ⟨1, []⟩⟩ := by
  decide +kernel

/-- Witness: a group in front of a response that ends the handshake. -/
example : IsGroup 64 [11, 24, 8, 12] ∧ Message 64 [] [] ∧ Proxy.Demo.done.serialize ≠ [] ∧
    (getBytesForPeer (parseResp fun _ => true) (Proxy.Demo.made Proxy.Demo.client)
      (some ([11, 24, 8, 12] ++ Proxy.Demo.done.serialize))).2.code = .ok ∧
    (getBytesForPeer (SessionResp.parse fun _ => true) (Proxy.Demo.made Proxy.Demo.client)
      (some ([11, 24, 8, 12] ++ Proxy.Demo.done.serialize))).2.code = .internal := by
  refine ⟨⟨63, 1, [11], [24, 8], [12], [(3, .varint 8)], rfl, rfl, by decide, ?_, ?_, ?_⟩, .nil,
    by decide +kernel, by decide +kernel, by decide +kernel⟩
  · exact (readNum32_iff (bs := [11]) (r := []) (n := 11)).mp (by decide +kernel) |>.elim
      fun t h => by rw [List.append_nil] at h; rw [h.1]; exact h.2
  · exact decode_iff.mp (by decide +kernel)
  · exact (readNum32_iff (bs := [12]) (r := []) (n := 12)).mp (by decide +kernel) |>.elim
      fun t h => by rw [List.append_nil] at h; rw [h.1]; exact h.2

/-- What is refused, and nothing else: what has, after some fields and groups, something that
cannot go on as a message. -/
theorem C118_refused (d : Nat) (bs : Bytes) :
    (∀ fs, ¬ Message d bs fs) ↔ ∃ a fs x, bs = a ++ x ∧ Message d a fs ∧ Refused d x := by
  constructor
  · intro h
    cases hd : decode d bs with
    | none => exact decode_none hd
    | some fs => exact absurd (decode_iff.mp hd) (h fs)
  · rintro ⟨a, fs, x, rfl, hm, hx⟩ gs hg
    have h1 := decode_refused hm hx
    rw [decode_iff.mpr hg] at h1
    cases h1

/-- Witness: 65 groups in one another, and 64. -/
example : (∀ fs, ¬ Message 64 (List.replicate 65 11 ++ List.replicate 65 12) fs) ∧
    Message 64 (List.replicate 64 11 ++ List.replicate 64 12) [] := by
  refine ⟨fun fs h => ?_, decode_iff.mp (by decide +kernel)⟩
  have := decode_iff.mpr h
  rw [show decode 64 (List.replicate 65 11 ++ List.replicate 65 12) = none by decide +kernel]
    at this
  cases this

/-- Bytes that are no message: the response is refused and leaves the proxy as it was, and no
context is made of them. -/
theorem C118_malformed_refused (utf8 : Bytes → Bool) (s : State) (bs : Bytes)
    (h : ∀ fs, ¬ Message 64 bs fs) :
    (∃ c, c ≠ .ok ∧ getBytesForPeer (parseResp utf8) s (some bs) = (s, ⟨c, 0, none⟩)) ∧
    ∃ c, c ≠ .ok ∧ deserialize utf8 bs = .error c := by
  have hd : decode 64 bs = none := by
    cases hd : decode 64 bs with
    | none => rfl
    | some fs => exact absurd (decode_iff.mp hd) (h fs)
  refine ⟨C44_failed_response _ s (some bs) (.inr (.inl ?_)), .internal, by decide, ?_⟩
  · simp only [Option.getD_some, parseResp, maxDepth, sessionResp, hd]; rfl
  · simp only [deserialize, parseContext, maxDepth, context, hd]; rfl

/-- Witness: a group that is closed with another number. -/
example : ∀ fs, ¬ Message 64 [11, 24, 8, 20] fs := by
  intro fs h
  have := decode_iff.mpr h
  rw [show decode 64 [11, 24, 8, 20] = none by decide +kernel] at this
  cases this

/-- A message that has no groups and keeps the limits, with all messages in it, means the same for
this decoder and for the plain one. -/
theorem C118_agrees (utf8 : Bytes → Bool) (bs : Bytes) :
    (∀ resp, sessionResp plain utf8 64 bs = some resp →
      parseResp utf8 bs = some resp ∧ SessionResp.parse utf8 bs = some resp) ∧
    (∀ c, context plain utf8 64 bs = some c →
      parseContext utf8 bs = some c ∧ PContext.parse utf8 bs = some c ∧
      deserialize utf8 bs = Context.deserialize utf8 bs) := by
  refine ⟨fun resp h => ⟨?_, ?_⟩, fun c h => ?_⟩
  · exact sessionResp_mono (fun _ _ _ => decode_of_plain) _ _ _ h
  · rw [← sessionResp_wire utf8 61]
    exact sessionResp_mono (E := wire) (fun _ _ _ => wire_of_plain) _ _ _ h
  · have h1 : parseContext utf8 bs = some c :=
      context_mono (fun _ _ _ => decode_of_plain) _ _ _ h
    have h2 : PContext.parse utf8 bs = some c := by
      rw [← context_wire utf8 62]
      exact context_mono (E := wire) (fun _ _ _ => wire_of_plain) _ _ _ h
    refine ⟨h1, h2, ?_⟩
    unfold deserialize Context.deserialize
    rw [h1, h2]
    rfl

/-- Witness. -/
example : sessionResp plain (fun _ => true) 64 Proxy.Demo.done.serialize =
    some Proxy.Demo.done := by decide +kernel

/-- A response that is well formed and shorter than 2^31 - 1 bytes is read back as it was
written. -/
theorem C118_response_read_back (utf8 : Bytes → Bool) (resp : SessionResp)
    (hl : resp.serialize.length < 2 ^ 31 - 1) (ho : resp.Ok utf8) :
    parseResp utf8 resp.serialize = some resp :=
  ((C118_agrees utf8 _).1 _ (sessionResp_serialize plain_encode 62 resp hl ho)).1

/-- Witness. -/
example : Proxy.Demo.done.serialize.length < 2 ^ 31 - 1 ∧ Proxy.Demo.done.Ok (fun _ => true) := by
  refine ⟨by decide +kernel, ?_⟩
  refine ⟨fun _ _ _ _ => rfl, by decide +kernel, fun r h => ⟨?_, rfl, fun _ _ _ _ => rfl,
    fun _ _ _ _ => rfl⟩, fun st h => ⟨?_, rfl⟩⟩
  · intro s hs
    cases h
    cases hs
    unfold SessionState.Ok
    decide +kernel
  · cases h
    decide +kernel

/-- A context serialized in fewer than 2^31 - 1 bytes comes back, with its strings cut at the first
NUL byte. -/
theorem C118_context_read_back (utf8 : Bytes → Bool) (c : Context) (b : Bytes)
    (hs : c.serialize false = .ok b) (hb : b.length < 2 ^ 31 - 1)
    (hp : Spec.Made c.peerIdentity) (hl : Spec.Made c.localIdentity)
    (hu : ∀ s ∈ [c.applicationProtocol, c.peerIdentity.value, c.localIdentity.value],
      utf8 (Spec.cut s) = true) :
    deserialize utf8 b = .ok c.cut := by
  have hold := C41_exact utf8 c b hs (by omega) hp hl hu
  rw [← hold]
  unfold Context.serialize at hs
  rw [tlsVersionToProto_eq, ciphersuiteToProto_eq] at hs
  cases hv : Spec.wireTlsVersion c.tlsVersion with
  | none => simp [hv, bind, Except.bind, orFail] at hs
  | some v =>
    cases hc : Spec.wireCiphersuite c.ciphersuite with
    | none => simp [hv, hc, bind, Except.bind, orFail] at hs
    | some n =>
      simp only [hv, hc, orFail, bind, Except.bind, if_neg Bool.false_ne_true, Except.ok.injEq] at hs
      subst hs
      simp only [List.mem_cons, List.not_mem_nil, or_false, forall_eq_or_imp, forall_eq] at hu
      refine ((C118_agrees utf8 _).2 _ (context_serialize plain_encode 63 _ hb (wireTlsVersion_lt hv)
        (wireCiphersuite_lt hc) hu.1 ?_ ?_)).2.2
      · intro p h s hs
        simp only [identityToProto_eq] at h
        rw [wireIdentity_strings h s hs]
        exact hu.2.1
      · intro p h s hs
        simp only [identityToProto_eq] at h
        rw [wireIdentity_strings h s hs]
        exact hu.2.2

/-- Witness. -/
example : ∃ b, demoContext.serialize false = .ok b ∧ b.length < 2 ^ 31 - 1 ∧
    Spec.Made demoContext.peerIdentity ∧ Spec.Made demoContext.localIdentity ∧
    deserialize (fun _ => true) b = .ok demoContext :=
  ⟨_, rfl, by decide +kernel, .inr ⟨_, .inl rfl⟩, .inl rfl, by decide +kernel⟩

/-- A response with a status that has lost its end, however little, is refused and leaves the proxy
as it was: what is left is not taken for a message with groups. -/
theorem C118_cut_serialized (utf8 : Bytes → Bool) (s : State) (resp : SessionResp)
    (hl : resp.serialize.length < 2 ^ 31 - 1) (hc : resp.bytesConsumed < 2 ^ 64)
    (hs : resp.status ≠ none) (p : Bytes) (hp : p <+: resp.serialize) (hne : p ≠ resp.serialize) :
    ∃ c, c ≠ .ok ∧ getBytesForPeer (parseResp utf8) s (some p) = (s, ⟨c, 0, none⟩) := by
  obtain ⟨t, ht⟩ := hp
  obtain ⟨st, hst⟩ := Option.ne_none_iff_exists'.mp hs
  have hpl : plain 64 resp.serialize = some resp.fields := by
    refine plain_encode 64 _ ?_ hl
    refine ok_append (ok_append (ok_append (ok_append ?_ ?_) ?_) ?_) ?_
    · exact ok_putOpt (by decide) (by decide)
    · exact ok_putBytes (by decide) (by decide)
    · exact ok_putNum (by decide) (by decide) hc
    · exact ok_putOpt (by decide) (by decide)
    · exact ok_putOpt (by decide) (by decide)
  obtain ⟨hd, hlim⟩ := plain_iff.mp hpl
  have hm := Wire.decode_iff.mp hd
  cases hp : parseResp utf8 p with
  | none => exact C44_failed_response _ s (some p) (.inr (.inl hp))
  | some r =>
    refine C44_failed_response _ s (some p) (.inr (.inr ⟨r, hp, fun st' hs' => ?_⟩))
    exfalso
    unfold parseResp maxDepth sessionResp at hp
    cases hdp : decode 64 p with
    | none => rw [hdp] at hp; cases hp
    | some gs =>
      rw [← ht] at hm
      have hw := wire_of_prefix (decode_iff.mp hdp) hm hlim
      have ht0 : t ≠ [] := fun h0 => hne (by rw [← ht, h0, List.append_nil])
      obtain ⟨f, more, he⟩ := WireMessage.cut hw hm ht0
      have hf : resp.fields = (putOpt 1 (resp.localIdentity.map PIdentity.serialize) ++
          putBytes 2 resp.outFrames ++ putNum 3 resp.bytesConsumed ++
          putOpt 4 (resp.result.map SessionResult.serialize)) ++ [(5, .len st.serialize)] := by
        simp only [SessionResp.fields, hst, Option.map_some]
        rfl
      rw [hf] at he
      have hpre : gs <+: putOpt 1 (resp.localIdentity.map PIdentity.serialize) ++
          putBytes 2 resp.outFrames ++ putNum 3 resp.bytesConsumed ++
          putOpt 4 (resp.result.map SessionResult.serialize) := by
        rcases List.eq_nil_or_concat (f :: more) with h0 | ⟨l, x, h0⟩
        · cases h0
        · rw [h0, List.concat_eq_append, ← List.append_assoc] at he
          exact ⟨l, (List.append_inj' he rfl).1.symm⟩
      have hl5 : lens 5 gs = [] := by
        obtain ⟨l, hl⟩ := hpre
        have : lens 5 (gs ++ l) = [] := by
          rw [hl]; simp [lens_putBytes, lens_putOpt]
        rw [lens_append] at this
        exact (List.append_eq_nil_iff.mp this).1
      rw [hdp] at hp
      simp only [Option.bind_eq_bind, Option.bind_some, Option.bind_eq_some_iff] at hp
      obtain ⟨li, _, r', _, s5, h5, h4⟩ := hp
      rw [getSub_none _ _ _ hl5] at h5
      cases h5
      cases h4
      cases hs'

/-- Witness: the last byte of `done` is missing; all of it is accepted. -/
example : Proxy.Demo.done.status ≠ none ∧ Proxy.Demo.done.serialize.length < 2 ^ 31 - 1 ∧
    (getBytesForPeer (parseResp fun _ => true) (Proxy.Demo.made Proxy.Demo.client)
      (some Proxy.Demo.done.serialize)).2.code = .ok ∧
    (getBytesForPeer (parseResp fun _ => true) (Proxy.Demo.made Proxy.Demo.client)
      (some Proxy.Demo.done.serialize.dropLast)).2 = ⟨.internal, 0, none⟩ := by decide +kernel

end S2A.Upb
