import Verif.Lemmas.Context
/-
Conversions between the API's and the wire's values (C40), serialized contexts (C41), the
single-token access token manager (C51) and resumption ticket requests (C52).

Strings are written to the wire up to their first NUL byte only
(`upb_strview_makez(s.c_str())`).  `Spec.cut s` is the part of `s` before its first NUL.
`utf8` is the check that the protobuf parser applies to fields of type `string`.
-/
namespace S2A
open Proto Util

/-! ## C40: conversions -/

/-- A TLS version is converted to its number in common.proto, and that number back to it; a
version without a number is refused, and so is a number without a version. -/
theorem C40_tls_version :
    (∀ v n, Spec.wireTlsVersion v = some n →
      tlsVersionToProto v = .ok n ∧ tlsVersionFromProto n = .ok v) ∧
    (∀ v, Spec.wireTlsVersion v = none → tlsVersionToProto v = .error .failedPrecondition) ∧
    (∀ n, (∀ v, Spec.wireTlsVersion v ≠ some n) →
      tlsVersionFromProto n = .error .failedPrecondition) := by
  refine ⟨fun v n h => ⟨by rw [tlsVersionToProto_eq, h]; rfl, tlsVersionFromProto_wire h⟩,
    fun v h => by rw [tlsVersionToProto_eq, h]; rfl, fun n h => ?_⟩
  match n with
  | 0 => exact absurd rfl (h .tls1_2)
  | 1 => exact absurd rfl (h .tls1_3)
  | n + 2 => rfl

/-- Likewise for ciphersuites. -/
theorem C40_ciphersuite :
    (∀ c n, Spec.wireCiphersuite c = some n →
      ciphersuiteToProto c = .ok n ∧ ciphersuiteFromProto n = .ok c) ∧
    (∀ c, Spec.wireCiphersuite c = none →
      ciphersuiteToProto c = .error .failedPrecondition) ∧
    (∀ n, (∀ c, Spec.wireCiphersuite c ≠ some n) →
      ciphersuiteFromProto n = .error .failedPrecondition) := by
  refine ⟨fun v n h => ⟨by rw [ciphersuiteToProto_eq, h]; rfl, ciphersuiteFromProto_wire h⟩,
    fun v h => by rw [ciphersuiteToProto_eq, h]; rfl, fun n h => ?_⟩
  match n with
  | 0 => exact absurd rfl (h .aes128GcmSha256)
  | 1 => exact absurd rfl (h .aes256GcmSha384)
  | 2 => exact absurd rfl (h .chacha20Poly1305Sha256)
  | n + 3 => rfl

/-- There are values of either kind without a counterpart. -/
example : Spec.wireTlsVersion (.other 7) = none ∧ Spec.wireCiphersuite (.other 7) = none ∧
    (∀ v, Spec.wireTlsVersion v ≠ some 2) ∧ ∀ c, Spec.wireCiphersuite c ≠ some 3 :=
  ⟨rfl, rfl, by rintro (_ | _ | _) <;> simp [Spec.wireTlsVersion],
   by rintro (_ | _ | _ | _) <;> simp [Spec.wireCiphersuite]⟩

/-- An identity whose string has no NUL byte is converted to the message with its type and
string, and back to itself.  Missing: strings with a NUL byte, see `C40_identity_nul`. -/
theorem C40_identity_partial (i : Identity) (hm : Spec.Made i) (h : Spec.NoNul i.value) :
    identityToProto i = Spec.wireIdentity i ∧ identityFromProto (identityToProto i) = i := by
  rw [identityToProto_eq, Identity.cut_noNul h]
  exact ⟨rfl, identityFromProto_wire hm⟩

/-- Without that hypothesis: exactly the strings with a NUL byte do not survive, they are cut
off at the first one.  So the round trip fails for them. -/
theorem C40_identity_nul (i : Identity) (hm : Spec.Made i) :
    identityFromProto (identityToProto i) = ⟨i.type, Spec.cut i.value⟩ ∧
    (identityFromProto (identityToProto i) = i ↔ Spec.NoNul i.value) := by
  have e := identityFromProto_toProto hm
  refine ⟨e, fun h => ?_, fun h => ?_⟩
  · rw [e] at h
    exact cut_eq_self (congrArg Identity.value h)
  · rw [e, Identity.cut_noNul h]

/-- `GetEmptyIdentity` has no message; it is converted to the null pointer, and back. -/
theorem C40_empty_identity :
    identityToProto .empty = none ∧ identityFromProto none = .empty := ⟨rfl, rfl⟩

/-- The other way: every identity message without a NUL byte in it that is set survives. -/
theorem C40_identity_from_wire (p : PIdentity) (hp : p ≠ .unset)
    (h : ∀ s ∈ p.strings, Spec.NoNul s) :
    identityToProto (identityFromProto (some p)) = some p := by
  cases p with
  | unset => exact absurd rfl hp
  | spiffeId s =>
    simp [identityToProto, identityFromProto, Identity.fromSpiffeId, cstr_eq_cut,
      cut_noNul (h s (by simp [PIdentity.strings]))]
  | hostname s =>
    simp [identityToProto, identityFromProto, Identity.fromHostname, cstr_eq_cut,
      cut_noNul (h s (by simp [PIdentity.strings]))]
  | uid s =>
    simp [identityToProto, identityFromProto, Identity.fromUid, cstr_eq_cut,
      cut_noNul (h s (by simp [PIdentity.strings]))]

example : Spec.Made (.fromUid [97, 98]) ∧ Spec.NoNul (Identity.fromUid [97, 98]).value :=
  ⟨.inr ⟨_, .inr (.inr rfl)⟩, by unfold Spec.NoNul; decide⟩

/-- A hostname with a NUL byte comes back shorter. -/
example : identityFromProto (identityToProto (.fromHostname [97, 0, 98])) =
    .fromHostname [97] := by decide +kernel

/-! ## C41: serialized contexts -/

/-- The context with all strings cut off at their first NUL byte. -/
def Context.cut (c : Context) : Context :=
  { c with
    applicationProtocol := Spec.cut c.applicationProtocol
    peerIdentity := c.peerIdentity.cut
    localIdentity := c.localIdentity.cut
    peerCertFingerprint := Spec.cut c.peerCertFingerprint
    localCertFingerprint := Spec.cut c.localCertFingerprint }

/-- Serializing a context succeeds if and only if its TLS version and ciphersuite have a
number on the wire (and the protobuf library does not fail). -/
theorem C41_serialize_succeeds (c : Context) :
    (∃ b, c.serialize false = .ok b) ↔
    (∃ v, Spec.wireTlsVersion c.tlsVersion = some v) ∧
    (∃ s, Spec.wireCiphersuite c.ciphersuite = some s) := by
  unfold Context.serialize
  rw [tlsVersionToProto_eq, ciphersuiteToProto_eq]
  cases Spec.wireTlsVersion c.tlsVersion <;> cases Spec.wireCiphersuite c.ciphersuite <;>
    simp [bind, Except.bind, orFail]

/-- Exactly what comes back from a serialized context, for all contexts that can be
serialized and whose strings (up to the first NUL) are valid: the context with every string
cut off at the first NUL byte. -/
theorem C41_exact (utf8 : Bytes → Bool) (c : Context) (b : Bytes)
    (hs : c.serialize false = .ok b) (hb : b.length < 2 ^ 64)
    (hp : Spec.Made c.peerIdentity) (hl : Spec.Made c.localIdentity)
    (hu : ∀ s ∈ [c.applicationProtocol, c.peerIdentity.value, c.localIdentity.value],
      utf8 (Spec.cut s) = true) :
    Context.deserialize utf8 b = .ok c.cut := by
  unfold Context.serialize at hs
  rw [tlsVersionToProto_eq, ciphersuiteToProto_eq] at hs
  cases hv : Spec.wireTlsVersion c.tlsVersion with
  | none => simp [hv, bind, Except.bind, orFail] at hs
  | some v =>
    cases hc : Spec.wireCiphersuite c.ciphersuite with
    | none => simp [hv, hc, bind, Except.bind, orFail] at hs
    | some n =>
      simp only [hv, hc, orFail, bind, Except.bind, if_neg Bool.false_ne_true, Except.ok.injEq] at hs
      subst hs
      simp only [List.mem_cons, List.not_mem_nil, or_false, forall_eq_or_imp, forall_eq] at hu
      unfold Context.deserialize
      rw [PContext.parse_serialize utf8 _ hb (wireTlsVersion_lt hv) (wireCiphersuite_lt hc) hu.1]
      · simp only [tlsVersionFromProto_wire hv, ciphersuiteFromProto_wire hc, bind, Except.bind,
          identityFromProto_toProto hp, identityFromProto_toProto hl]
        rfl
      · intro p h s hs
        simp only [identityToProto_eq] at h
        rw [wireIdentity_strings h s hs]
        exact hu.2.1
      · intro p h s hs
        simp only [identityToProto_eq] at h
        rw [wireIdentity_strings h s hs]
        exact hu.2.2

/-- A context without NUL bytes in its strings comes back equal.  Missing: contexts with NUL
bytes, which do not (`C41_nul_lost`); strings that are not valid UTF-8, which the parser
refuses; serializations of 2^64 bytes or more. -/
theorem C41_context_round_trip_partial (utf8 : Bytes → Bool) (c : Context) (b : Bytes)
    (hs : c.serialize false = .ok b) (hb : b.length < 2 ^ 64)
    (hp : Spec.Made c.peerIdentity) (hl : Spec.Made c.localIdentity)
    (hn : ∀ s ∈ [c.applicationProtocol, c.peerIdentity.value, c.localIdentity.value,
      c.peerCertFingerprint, c.localCertFingerprint], Spec.NoNul s)
    (hu : ∀ s ∈ [c.applicationProtocol, c.peerIdentity.value, c.localIdentity.value],
      utf8 s = true) :
    Context.deserialize utf8 b = .ok c := by
  simp only [List.mem_cons, List.not_mem_nil, or_false, forall_eq_or_imp, forall_eq] at hn hu
  obtain ⟨n1, n2, n3, n4, n5⟩ := hn
  rw [C41_exact utf8 c b hs hb hp hl (by simpa [cut_noNul, n1, n2, n3] using hu)]
  unfold Context.cut
  rw [cut_noNul n1, Identity.cut_noNul n2, Identity.cut_noNul n3, cut_noNul n4, cut_noNul n5]

/-- An ordinary context. -/
def demoContext : Context :=
  ⟨[103, 114, 112, 99], .tls1_3, .chacha20Poly1305Sha256, .fromSpiffeId [115, 112], .empty,
   [1, 2, 255], [3], true⟩

example : ∃ b, demoContext.serialize false = .ok b ∧ b.length < 2 ^ 64 ∧
    Spec.Made demoContext.peerIdentity ∧ Spec.Made demoContext.localIdentity ∧
    Context.deserialize (fun _ => true) b = .ok demoContext :=
  ⟨_, rfl, by decide +kernel, .inr ⟨_, .inl rfl⟩, .inl rfl, by decide +kernel⟩

/-- The full property is false: a fingerprint with a NUL byte (fingerprints are binary) is
lost from that byte on. -/
theorem C41_nul_lost : ∃ c b, c.serialize false = .ok b ∧ Spec.Made c.peerIdentity ∧
    Spec.Made c.localIdentity ∧ Context.deserialize (fun _ => true) b ≠ .ok c :=
  ⟨{ demoContext with peerCertFingerprint := [0, 1, 2] }, _, rfl, .inr ⟨_, .inl rfl⟩, .inl rfl,
   by decide +kernel⟩

/-- Deserializing accepts only contexts whose enum values are supported, whatever the bytes. -/
theorem C41_deserialize_supported (utf8 : Bytes → Bool) (b : Bytes) (c : Context)
    (h : Context.deserialize utf8 b = .ok c) :
    (∃ v, Spec.wireTlsVersion c.tlsVersion = some v) ∧
    (∃ s, Spec.wireCiphersuite c.ciphersuite = some s) ∧
    Spec.Made c.peerIdentity ∧ Spec.Made c.localIdentity := by
  have made : ∀ p, Spec.Made (identityFromProto p) := by
    intro p
    match p with
    | none => exact .inl rfl
    | some .unset => exact .inl rfl
    | some (.spiffeId s) => exact .inr ⟨s, .inl rfl⟩
    | some (.hostname s) => exact .inr ⟨s, .inr (.inl rfl)⟩
    | some (.uid s) => exact .inr ⟨s, .inr (.inr rfl)⟩
  unfold Context.deserialize at h
  cases hp : PContext.parse utf8 b with
  | none => simp [hp] at h
  | some m =>
    simp only [hp, bind, Except.bind] at h
    cases hv : tlsVersionFromProto m.tlsVersion with
    | error e => simp [hv] at h
    | ok v =>
      cases hc : ciphersuiteFromProto m.ciphersuite with
      | error e => simp [hv, hc] at h
      | ok s =>
        simp only [hv, hc, Except.ok.injEq] at h
        subst h
        refine ⟨?_, ?_, made _, made _⟩
        · unfold tlsVersionFromProto at hv
          split at hv <;> cases hv <;> exact ⟨_, rfl⟩
        · unfold ciphersuiteFromProto at hc
          split at hc <;> cases hc <;> exact ⟨_, rfl⟩

/-! ## C51: the single-token access token manager -/

namespace TokenManager

theorem foldl_managers (p : Process) (ops : List Op) (i : Nat) (m : Single)
    (h : p.managers[i]? = some m) :
    (run p ops).managers[i]? = some m := by
  unfold run
  induction ops generalizing p with
  | nil => exact h
  | cons op ops ih =>
    refine ih _ ?_
    have hi : i < p.managers.length := (List.getElem?_eq_some_iff.1 h).1
    cases op <;> simp [step, h, List.getElem?_append_left hi]

/-- The answer of a manager, for every identity and after every later history including
changes of the environment, is the token that was in the environment when it was made, or
`NOT_FOUND` if there was none then.

The property's last part, that a manager cannot be made without a token, is false: `build`
always makes one (`C51_built_without_token`). -/
theorem C51_constant_partial (p : Process) (before after : List Op) (id : Identity) :
    let q := run p before
    let r := run p (before ++ .build :: after)
    let answer : Except StatusCode Bytes := match q.env with
      | some t => .ok t
      | none => .error .notFound
    (step r (.getToken q.managers.length id)).2 = some answer ∧
    (step r (.getDefaultToken q.managers.length)).2 = some answer := by
  intro q r answer
  have e : r = run { q with managers := q.managers ++ [Single.create q.env] } after := by
    simp [r, q, run, step]
  have h : r.managers[q.managers.length]? = some (Single.create q.env) := by
    rw [e]
    exact foldl_managers _ _ _ _ (by simp)
  have ht : (Single.create q.env).token = answer := by
    simp only [answer, Single.create]
    cases q.env <;> rfl
  constructor
  · simp [step, h, Single.getToken, ht]
  · simp [step, h, Single.getDefaultToken, ht]

/-- With no token in the environment a manager is made all the same. -/
theorem C51_built_without_token :
    (run ⟨none, []⟩ [.build]).managers.length = 1 ∧
    (step (run ⟨none, []⟩ [.build, .setEnv (some [1])]) (.getDefaultToken 0)).2 =
      some (.error .notFound) := by
  decide

example : (step (run ⟨some [1], []⟩ [.build, .setEnv (some [2]), .build, .setEnv none])
    (.getToken 0 .empty)).2 = some (.ok [1]) := by decide +kernel

end TokenManager

/-! ## C52: resumption ticket requests -/

namespace TicketSender

/-- An empty request, as `s2a_proto_SessionReq_new` makes it. -/
def emptyReq : SessionReq := ⟨.unset, []⟩

/-- For every list of tickets (with any bytes in them), connection id and non-empty identity:
preparing the request succeeds, and the S2A reads from its serialisation exactly the tickets
in order, the connection id and the identity, and nothing else.  Missing: identities with a
NUL byte, which are cut off there, see `C52_exact`. -/
theorem C52_ticket_request_partial (utf8 : Bytes → Bool) (id : UInt64) (i : Identity)
    (p : PIdentity) (ts : List Bytes) (hi : Spec.wireIdentity i = some p)
    (hn : Spec.NoNul i.value) (hu : utf8 i.value = true)
    (hl : (prepare id i (some ts) emptyReq).2.serialize.length < 2 ^ 64) :
    (prepare id i (some ts) emptyReq).1 = true ∧
    SessionReq.parse utf8 (prepare id i (some ts) emptyReq).2.serialize =
      some ⟨.resumptionTicket ⟨ts, id.toNat, some p⟩, []⟩ := by
  have e : prepare id i (some ts) emptyReq =
      (true, ⟨.resumptionTicket ⟨ts, id.toNat, some p⟩, []⟩) := by
    simp [prepare, emptyReq, identityToProto_eq, Identity.cut_noNul hn, hi]
  rw [e] at hl ⊢
  refine ⟨rfl, SessionReq.parse_serialize utf8 _ hl ⟨id.toNat_lt, ?_⟩ (by simp)⟩
  intro q hq s hs
  simp only [Option.some.injEq] at hq
  subst hq
  rw [wireIdentity_strings hi s hs]
  exact hu

/-- For every request: what `PrepareResumptionTicketReq` leaves in it and when it fails. -/
theorem C52_exact (id : UInt64) (i : Identity) (tickets : Option (List Bytes))
    (req : SessionReq) :
    ((prepare id i tickets req).1 = true ↔ tickets.isSome ∧ i.type ≠ .none) ∧
    (prepare id i tickets req).2.authMechanisms = req.authMechanisms ∧
    (∀ ts, tickets = some ts → i.type ≠ .none → (∀ t, req.kind ≠ .resumptionTicket t) →
      (prepare id i tickets req).2.kind =
        .resumptionTicket ⟨ts, id.toNat, Spec.wireIdentity ⟨i.type, Spec.cut i.value⟩⟩) := by
  obtain ⟨t, v⟩ := i
  obtain ⟨k, am⟩ := req
  cases tickets with
  | none => simp [prepare]
  | some ts =>
    cases t <;> cases k <;> simp [prepare, identityToProto, Spec.wireIdentity, cstr_eq_cut]

/-- Two tickets, one with a NUL byte in it. -/
example : (prepare 7 (.fromUid [97]) (some [[0, 1], [2]]) emptyReq).2.serialize.length < 2 ^ 64 ∧
    SessionReq.parse (fun _ => true)
      (prepare 7 (.fromUid [97]) (some [[0, 1], [2]]) emptyReq).2.serialize =
      some ⟨.resumptionTicket ⟨[[0, 1], [2]], 7, some (.uid [97])⟩, []⟩ := by decide +kernel

/-- The full property is false: a NUL byte in the identity cuts it off. -/
theorem C52_nul_lost : ∃ i p, Spec.Made i ∧ Spec.wireIdentity i = some p ∧
    SessionReq.parse (fun _ => true) (prepare 7 i (some []) emptyReq).2.serialize ≠
      some ⟨.resumptionTicket ⟨[], 7, some p⟩, []⟩ :=
  ⟨.fromUid [97, 0, 98], _, .inr ⟨_, .inr (.inr rfl)⟩, rfl, by decide +kernel⟩

end TicketSender
end S2A
