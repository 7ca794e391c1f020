import Verif.Model.Proto
import Verif.Lemmas.Wire
/- Every message can be read back from its serialisation. -/
namespace S2A.Proto
open S2A.Wire

/-- The string of an identity. -/
def PIdentity.strings : PIdentity → List Bytes
  | .unset => []
  | .spiffeId s => [s]
  | .hostname s => [s]
  | .uid s => [s]

theorem encode_sub_le {fs : List Field} {i : Nat} {b : Bytes} (hl : (encode fs).length < 2 ^ 64)
    (h : b ∈ lens i fs) : b.length < 2 ^ 64 := by
  simp only [lens, List.mem_filterMap] at h
  obtain ⟨⟨j, v⟩, hf, hb⟩ := h
  cases v with
  | len c =>
    simp only [Val.asLen] at hb
    have hc : c = b := by
      split at hb
      · exact Option.some.inj hb
      · cases hb
    subst hc
    have := len_le_encode hf
    omega
  | _ => simp [Val.asLen] at hb

theorem PIdentity.parse_serialize (utf8 : Bytes → Bool) (m : PIdentity)
    (hl : m.serialize.length < 2 ^ 64) (hu : ∀ s ∈ m.strings, utf8 s = true) :
    parse utf8 m.serialize = some m := by
  have hd : decode m.serialize = some m.fields := by
    refine decode_encode_short _ ?_ hl
    cases m <;> simp [fields, FieldOk']
  unfold parse
  rw [hd]
  cases m <;>
    simp_all [fields, strings, checkStrings, checkEntries, lens, Val.asLen, ofField]

theorem AuthMechanism.parse_serialize (utf8 : Bytes → Bool) (m : AuthMechanism)
    (hl : m.serialize.length < 2 ^ 64)
    (hi : ∀ i, m.identity = some i → ∀ s ∈ i.strings, utf8 s = true)
    (ht : ∀ t, m.token = some t → utf8 t = true) :
    parse utf8 m.serialize = some m := by
  have hd : decode m.serialize = some m.fields :=
    decode_encode_short _ (ok_append (ok_putOpt (by decide) (by decide))
      (ok_putOpt (by decide) (by decide))) hl
  have h1 : lens 1 m.fields = (m.identity.map PIdentity.serialize).toList := by
    simp [fields, lens_putOpt]
  have h2 : lens 2 m.fields = m.token.toList := by simp [fields, lens_putOpt]
  have hs := getSub_opt (PIdentity.parse utf8) PIdentity.serialize 1 m.fields m.identity h1
    (fun i h => PIdentity.parse_serialize utf8 i
      (encode_sub_le (fs := m.fields) (i := 1) hl (by simp [h1, h])) (hi i h))
  have hc : checkStrings utf8 [2] m.fields = true := by
    simp only [checkStrings, List.all_cons, List.all_nil, h2, Bool.and_true, List.all_eq_true]
    intro s hs
    exact ht s (by simpa using hs)
  unfold parse
  rw [hd]
  simp only [Option.bind_eq_bind, Option.bind_some, hc, h2, hs]
  obtain ⟨i, t⟩ := m
  cases t <;> rfl

theorem getU64_of {i n : Nat} {fs : List Field} (h : varints i fs = if n ≠ 0 then [n] else []) :
    getU64 i fs = n := by
  unfold getU64; rw [h]
  by_cases hn : n = 0 <;> simp [hn]

theorem getU32_of {i n : Nat} {fs : List Field} (h : varints i fs = if n ≠ 0 then [n] else [])
    (hn : n < 2 ^ 32) : getU32 i fs = n := by
  unfold getU32; rw [getU64_of h, Nat.mod_eq_of_lt hn]

theorem getBool_of {i : Nat} {b : Bool} {fs : List Field}
    (h : varints i fs = if b then [1] else []) : getBool i fs = b := by
  unfold getBool getU64; rw [h]
  cases b <;> simp

theorem getBytes_of {i : Nat} {b : Bytes} {fs : List Field}
    (h : lens i fs = if b ≠ [] then [b] else []) : getBytes i fs = b := by
  unfold getBytes; rw [h]
  cases b <;> simp

theorem ClientStart.parse_serialize (utf8 : Bytes → Bool) (m : ClientStart)
    (hl : m.serialize.length < 2 ^ 64) (h2 : m.minTlsVersion < 2 ^ 32)
    (h3 : m.maxTlsVersion < 2 ^ 32) (h4 : ∀ c ∈ m.ciphersuites, c < 2 ^ 32)
    (hp : ∀ s ∈ m.applicationProtocols, utf8 s = true) (hn : utf8 m.targetName = true)
    (ht : ∀ i ∈ m.targetIdentities, ∀ s ∈ i.strings, utf8 s = true)
    (hi : ∀ i, m.localIdentity = some i → ∀ s ∈ i.strings, utf8 s = true) :
    parse utf8 m.serialize = some m := by
  have hd : decode m.serialize = some m.fields := by
    refine decode_encode_short _ ?_ hl
    refine ok_append (ok_append (ok_append (ok_append (ok_append (ok_append ?_ ?_) ?_) ?_) ?_) ?_) ?_
    · exact ok_putAll (by decide) (by decide)
    · exact ok_putNum (by decide) (by decide) (by omega)
    · exact ok_putNum (by decide) (by decide) (by omega)
    · exact ok_putPacked (by decide) (by decide)
    · exact ok_putAll (by decide) (by decide)
    · exact ok_putOpt (by decide) (by decide)
    · exact ok_putBytes (by decide) (by decide)
  have e1 : lens 1 m.fields = m.applicationProtocols := by
    simp [fields, lens_putOpt, lens_putAll, lens_putPacked, lens_putBytes]
  have e5 : lens 5 m.fields = m.targetIdentities.map PIdentity.serialize := by
    simp [fields, lens_putOpt, lens_putAll, lens_putPacked, lens_putBytes]
  have e6 : lens 6 m.fields = (m.localIdentity.map PIdentity.serialize).toList := by
    simp [fields, lens_putOpt, lens_putAll, lens_putPacked, lens_putBytes]
  have e7 : lens 7 m.fields = if m.targetName ≠ [] then [m.targetName] else [] := by
    simp [fields, lens_putOpt, lens_putAll, lens_putPacked, lens_putBytes]
  have e2 : varints 2 m.fields = if m.minTlsVersion ≠ 0 then [m.minTlsVersion] else [] := by
    simp [fields, varints_putNum]
  have e3 : varints 3 m.fields = if m.maxTlsVersion ≠ 0 then [m.maxTlsVersion] else [] := by
    simp [fields, varints_putNum]
  have e4 : getRepeated 4 m.fields = some m.ciphersuites := by
    have hf : m.fields = (putAll 1 m.applicationProtocols ++ putNum 2 m.minTlsVersion ++
        putNum 3 m.maxTlsVersion) ++ putPacked 4 m.ciphersuites ++
        (putAll 5 (m.targetIdentities.map PIdentity.serialize) ++
          putOpt 6 (m.localIdentity.map PIdentity.serialize) ++ putBytes 7 m.targetName) := by
      simp [fields]
    rw [hf]
    refine getRepeated_packed _ _ _ ?_ ?_ h4
    · intro f hf
      simp only [List.mem_append, putAll, putNum, List.mem_map] at hf
      rcases hf with (⟨_, _, rfl⟩ | hf) | hf
      · simp
      all_goals (split at hf <;> simp at hf; subst hf; simp)
    · intro f hf
      simp only [List.mem_append, putAll, putOpt, putBytes, List.mem_map] at hf
      rcases hf with (⟨_, _, rfl⟩ | hf) | hf
      · simp
      all_goals (split at hf <;> simp at hf; subst hf; simp)
  have s5 : getSubs (PIdentity.parse utf8) 5 m.fields = some m.targetIdentities := by
    unfold getSubs; rw [e5]
    refine mapM_ser _ _ _ fun i h => PIdentity.parse_serialize utf8 i ?_ (ht i h)
    exact encode_sub_le (fs := m.fields) (i := 5) hl (by rw [e5]; exact List.mem_map_of_mem h)
  have s6 := getSub_opt (PIdentity.parse utf8) PIdentity.serialize 6 m.fields m.localIdentity e6
    (fun i h => PIdentity.parse_serialize utf8 i
      (encode_sub_le (fs := m.fields) (i := 6) hl (by simp [e6, h])) (hi i h))
  have hc : checkStrings utf8 [1, 7] m.fields = true := by
    simp only [checkStrings, List.all_cons, List.all_nil, e1, e7, Bool.and_true,
      Bool.and_eq_true, List.all_eq_true]
    refine ⟨hp, ?_⟩
    intro s hs
    split at hs
    · simp only [List.mem_singleton] at hs; subst hs; exact hn
    · simp at hs
  unfold parse
  rw [hd]
  simp only [Option.bind_eq_bind, Option.bind_some, hc, e4, s5, s6, e1, getU32_of e2 h2,
    getU32_of e3 h3, getBytes_of e7]
  rfl

theorem ServerStart.parse_serialize (utf8 : Bytes → Bool) (m : ServerStart)
    (hl : m.serialize.length < 2 ^ 64) (h2 : m.minTlsVersion < 2 ^ 32)
    (h3 : m.maxTlsVersion < 2 ^ 32) (h4 : ∀ c ∈ m.ciphersuites, c < 2 ^ 32)
    (hp : ∀ s ∈ m.applicationProtocols, utf8 s = true)
    (ht : ∀ i ∈ m.localIdentities, ∀ s ∈ i.strings, utf8 s = true) :
    parse utf8 m.serialize = some m := by
  have hd : decode m.serialize = some m.fields := by
    refine decode_encode_short _ ?_ hl
    refine ok_append (ok_append (ok_append (ok_append (ok_append ?_ ?_) ?_) ?_) ?_) ?_
    · exact ok_putAll (by decide) (by decide)
    · exact ok_putNum (by decide) (by decide) (by omega)
    · exact ok_putNum (by decide) (by decide) (by omega)
    · exact ok_putPacked (by decide) (by decide)
    · exact ok_putAll (by decide) (by decide)
    · exact ok_putBytes (by decide) (by decide)
  have e1 : lens 1 m.fields = m.applicationProtocols := by
    simp [fields, lens_putAll, lens_putPacked, lens_putBytes]
  have e5 : lens 5 m.fields = m.localIdentities.map PIdentity.serialize := by
    simp [fields, lens_putAll, lens_putPacked, lens_putBytes]
  have e6 : lens 6 m.fields = if m.inBytes ≠ [] then [m.inBytes] else [] := by
    simp [fields, lens_putAll, lens_putPacked, lens_putBytes]
  have e2 : varints 2 m.fields = if m.minTlsVersion ≠ 0 then [m.minTlsVersion] else [] := by
    simp [fields, varints_putNum]
  have e3 : varints 3 m.fields = if m.maxTlsVersion ≠ 0 then [m.maxTlsVersion] else [] := by
    simp [fields, varints_putNum]
  have e4 : getRepeated 4 m.fields = some m.ciphersuites := by
    have hf : m.fields = (putAll 1 m.applicationProtocols ++ putNum 2 m.minTlsVersion ++
        putNum 3 m.maxTlsVersion) ++ putPacked 4 m.ciphersuites ++
        (putAll 5 (m.localIdentities.map PIdentity.serialize) ++ putBytes 6 m.inBytes) := by
      simp [fields]
    rw [hf]
    refine getRepeated_packed _ _ _ ?_ ?_ h4
    · intro f hf
      simp only [List.mem_append, putAll, putNum, List.mem_map] at hf
      rcases hf with (⟨_, _, rfl⟩ | hf) | hf
      · simp
      all_goals (split at hf <;> simp at hf; subst hf; simp)
    · intro f hf
      simp only [List.mem_append, putAll, putBytes, List.mem_map] at hf
      rcases hf with ⟨_, _, rfl⟩ | hf
      · simp
      all_goals (split at hf <;> simp at hf; subst hf; simp)
  have s5 : getSubs (PIdentity.parse utf8) 5 m.fields = some m.localIdentities := by
    unfold getSubs; rw [e5]
    refine mapM_ser _ _ _ fun i h => PIdentity.parse_serialize utf8 i ?_ (ht i h)
    exact encode_sub_le (fs := m.fields) (i := 5) hl (by rw [e5]; exact List.mem_map_of_mem h)
  have hc : checkStrings utf8 [1] m.fields = true := by
    simp only [checkStrings, List.all_cons, List.all_nil, e1, Bool.and_true, List.all_eq_true]
    exact hp
  unfold parse
  rw [hd]
  simp only [Option.bind_eq_bind, Option.bind_some, hc, e4, s5, e1, getU32_of e2 h2,
    getU32_of e3 h3, getBytes_of e6]
  rfl

theorem NextReq.parse_serialize (m : NextReq) (hl : m.serialize.length < 2 ^ 64) :
    parse m.serialize = some m := by
  have hd : decode m.serialize = some m.fields :=
    decode_encode_short _ (ok_putBytes (by decide) (by decide)) hl
  have e1 : lens 1 m.fields = if m.inBytes ≠ [] then [m.inBytes] else [] := by
    simp [fields, lens_putBytes]
  unfold parse
  rw [hd]
  simp only [Option.bind_eq_bind, Option.bind_some, getBytes_of e1]

theorem TicketReq.parse_serialize (utf8 : Bytes → Bool) (m : TicketReq)
    (hl : m.serialize.length < 2 ^ 64) (h2 : m.connectionId < 2 ^ 64)
    (hi : ∀ i, m.localIdentity = some i → ∀ s ∈ i.strings, utf8 s = true) :
    parse utf8 m.serialize = some m := by
  have hd : decode m.serialize = some m.fields := by
    refine decode_encode_short _ ?_ hl
    refine ok_append (ok_append ?_ ?_) ?_
    · exact ok_putAll (by decide) (by decide)
    · exact ok_putNum (by decide) (by decide) h2
    · exact ok_putOpt (by decide) (by decide)
  have e1 : lens 1 m.fields = m.inBytes := by simp [fields, lens_putAll, lens_putOpt]
  have e3 : lens 3 m.fields = (m.localIdentity.map PIdentity.serialize).toList := by
    simp [fields, lens_putAll, lens_putOpt]
  have e2 : varints 2 m.fields = if m.connectionId ≠ 0 then [m.connectionId] else [] := by
    simp [fields, varints_putNum]
  have s3 := getSub_opt (PIdentity.parse utf8) PIdentity.serialize 3 m.fields m.localIdentity e3
    (fun i h => PIdentity.parse_serialize utf8 i
      (encode_sub_le (fs := m.fields) (i := 3) hl (by simp [e3, h])) (hi i h))
  unfold parse
  rw [hd]
  simp only [Option.bind_eq_bind, Option.bind_some, s3, e1, getU64_of e2]

/-- All strings of a request pass the check, and its numbers fit their types. -/
def ReqKind.Ok (utf8 : Bytes → Bool) : ReqKind → Prop
  | .unset => True
  | .clientStart m => m.minTlsVersion < 2 ^ 32 ∧ m.maxTlsVersion < 2 ^ 32 ∧
      (∀ c ∈ m.ciphersuites, c < 2 ^ 32) ∧ (∀ s ∈ m.applicationProtocols, utf8 s = true) ∧
      utf8 m.targetName = true ∧
      (∀ i ∈ m.targetIdentities, ∀ s ∈ i.strings, utf8 s = true) ∧
      (∀ i, m.localIdentity = some i → ∀ s ∈ i.strings, utf8 s = true)
  | .serverStart m => m.minTlsVersion < 2 ^ 32 ∧ m.maxTlsVersion < 2 ^ 32 ∧
      (∀ c ∈ m.ciphersuites, c < 2 ^ 32) ∧ (∀ s ∈ m.applicationProtocols, utf8 s = true) ∧
      (∀ i ∈ m.localIdentities, ∀ s ∈ i.strings, utf8 s = true)
  | .next _ => True
  | .resumptionTicket m => m.connectionId < 2 ^ 64 ∧
      (∀ i, m.localIdentity = some i → ∀ s ∈ i.strings, utf8 s = true)

/-- Likewise for a mechanism. -/
def AuthMechanism.Ok (utf8 : Bytes → Bool) (m : AuthMechanism) : Prop :=
  (∀ i, m.identity = some i → ∀ s ∈ i.strings, utf8 s = true) ∧
  (∀ t, m.token = some t → utf8 t = true)

theorem mapM_ofField_auth (utf8 : Bytes → Bool) (bs : List Bytes) :
    (putAll 5 bs).mapM (ReqKind.ofField utf8) = some (List.replicate bs.length none) := by
  induction bs with
  | nil => rfl
  | cons b bs ih =>
    simp only [putAll, List.map_cons] at ih ⊢
    simp [List.mapM_cons, ih, ReqKind.ofField, List.replicate_succ]

theorem filterMap_replicate_none {α} (n : Nat) :
    (List.replicate n (none : Option α)).filterMap id = [] := by
  induction n with
  | zero => rfl
  | succ n ih => simp [List.replicate_succ]

theorem SessionReq.parse_serialize (utf8 : Bytes → Bool) (m : SessionReq)
    (hl : m.serialize.length < 2 ^ 64) (hk : m.kind.Ok utf8)
    (ha : ∀ a ∈ m.authMechanisms, a.Ok utf8) :
    parse utf8 m.serialize = some m := by
  have hd : decode m.serialize = some m.fields := by
    refine decode_encode_short _ ?_ hl
    refine ok_append ?_ (ok_putAll (by decide) (by decide))
    cases m.kind <;> simp [ReqKind.fields, FieldOk']
  have e5 : lens 5 m.fields = m.authMechanisms.map AuthMechanism.serialize := by
    have : lens 5 m.kind.fields = [] := by
      cases m.kind <;> simp [ReqKind.fields, lens]
    simp [fields, lens_putAll, this]
  have s5 : getSubs (AuthMechanism.parse utf8) 5 m.fields = some m.authMechanisms := by
    unfold getSubs; rw [e5]
    refine mapM_ser _ _ _ fun a h => AuthMechanism.parse_serialize utf8 a ?_ (ha a h).1 (ha a h).2
    exact encode_sub_le (fs := m.fields) (i := 5) hl (by rw [e5]; exact List.mem_map_of_mem h)
  have hkl : ∀ i b, (i, Val.len b) ∈ m.kind.fields → b.length < 2 ^ 64 := by
    intro i b h
    have : (i, Val.len b) ∈ m.fields := List.mem_append_left _ h
    have := len_le_encode this
    have hl' : (encode m.fields).length < 2 ^ 64 := hl
    omega
  have hkind : m.kind.fields.mapM (ReqKind.ofField utf8) =
      some (if m.kind = .unset then [] else [some m.kind]) := by
    cases hm : m.kind with
    | unset => rfl
    | clientStart c =>
      rw [hm] at hk hkl
      obtain ⟨k1, k2, k3, k4, k5, k6, k7⟩ := hk
      have := ClientStart.parse_serialize utf8 c (hkl 1 _ (by simp [ReqKind.fields]))
        k1 k2 k3 k4 k5 k6 k7
      simp [ReqKind.fields, ReqKind.ofField, this]
    | serverStart c =>
      rw [hm] at hk hkl
      obtain ⟨k1, k2, k3, k4, k5⟩ := hk
      have := ServerStart.parse_serialize utf8 c (hkl 2 _ (by simp [ReqKind.fields]))
        k1 k2 k3 k4 k5
      simp [ReqKind.fields, ReqKind.ofField, this]
    | next c =>
      rw [hm] at hk hkl
      have := NextReq.parse_serialize c (hkl 3 _ (by simp [ReqKind.fields]))
      simp [ReqKind.fields, ReqKind.ofField, this]
    | resumptionTicket c =>
      rw [hm] at hk hkl
      obtain ⟨k1, k2⟩ := hk
      have := TicketReq.parse_serialize utf8 c (hkl 4 _ (by simp [ReqKind.fields])) k1 k2
      simp [ReqKind.fields, ReqKind.ofField, this]
  unfold parse
  rw [hd]
  simp only [Option.bind_eq_bind, Option.bind_some, s5]
  have hall : m.fields.mapM (ReqKind.ofField utf8) =
      some ((if m.kind = .unset then [] else [some m.kind]) ++
        List.replicate (m.authMechanisms.map AuthMechanism.serialize).length none) := by
    unfold fields
    rw [List.mapM_append, hkind, mapM_ofField_auth]
    rfl
  rw [hall]
  simp only [Option.bind_some, List.filterMap_append, filterMap_replicate_none]
  obtain ⟨k, a⟩ := m
  by_cases h : k = .unset
  · simp [h]
  · simp [h]

theorem SessionState.parse_serialize (m : SessionState) (hl : m.serialize.length < 2 ^ 64)
    (h1 : m.tlsVersion < 2 ^ 32) (h2 : m.ciphersuite < 2 ^ 32) (h3 : m.inSequence < 2 ^ 64)
    (h4 : m.outSequence < 2 ^ 64) (h9 : m.connectionId < 2 ^ 64) :
    parse m.serialize = some m := by
  have hd : decode m.serialize = some m.fields := by
    refine decode_encode_short _ ?_ hl
    refine ok_append (ok_append (ok_append (ok_append (ok_append (ok_append (ok_append
      ?_ ?_) ?_) ?_) ?_) ?_) ?_) ?_
    · exact ok_putNum (by decide) (by decide) (by omega)
    · exact ok_putNum (by decide) (by decide) (by omega)
    · exact ok_putNum (by decide) (by decide) (by omega)
    · exact ok_putNum (by decide) (by decide) (by omega)
    · exact ok_putBytes (by decide) (by decide)
    · exact ok_putBytes (by decide) (by decide)
    · exact ok_putNum (by decide) (by decide) (by omega)
    · exact ok_putBool (by decide) (by decide)
  have e1 : varints 1 m.fields = if m.tlsVersion ≠ 0 then [m.tlsVersion] else [] := by
    simp [fields, varints_putNum, varints_putBool]
  have e2 : varints 2 m.fields = if m.ciphersuite ≠ 0 then [m.ciphersuite] else [] := by
    simp [fields, varints_putNum, varints_putBool]
  have e3 : varints 3 m.fields = if m.inSequence ≠ 0 then [m.inSequence] else [] := by
    simp [fields, varints_putNum, varints_putBool]
  have e4 : varints 4 m.fields = if m.outSequence ≠ 0 then [m.outSequence] else [] := by
    simp [fields, varints_putNum, varints_putBool]
  have e5 : lens 5 m.fields = if m.inKey ≠ [] then [m.inKey] else [] := by
    simp [fields, lens_putBytes]
  have e6 : lens 6 m.fields = if m.outKey ≠ [] then [m.outKey] else [] := by
    simp [fields, lens_putBytes]
  have e9 : varints 9 m.fields = if m.connectionId ≠ 0 then [m.connectionId] else [] := by
    simp [fields, varints_putNum, varints_putBool]
  have e10 : varints 10 m.fields = if m.isHandshakeResumed then [1] else [] := by
    simp [fields, varints_putNum, varints_putBool]
  unfold parse
  rw [hd]
  simp only [Option.bind_eq_bind, Option.bind_some, getU32_of e1 h1, getU32_of e2 h2,
    getU64_of e3, getU64_of e4, getBytes_of e5, getBytes_of e6, getU64_of e9, getBool_of e10]

/-- The numbers of a session state fit their types. -/
def SessionState.Ok (m : SessionState) : Prop :=
  m.tlsVersion < 2 ^ 32 ∧ m.ciphersuite < 2 ^ 32 ∧ m.inSequence < 2 ^ 64 ∧
    m.outSequence < 2 ^ 64 ∧ m.connectionId < 2 ^ 64

theorem SessionResult.parse_serialize (utf8 : Bytes → Bool) (m : SessionResult)
    (hl : m.serialize.length < 2 ^ 64) (hs : ∀ s, m.state = some s → s.Ok)
    (hp : utf8 m.applicationProtocol = true)
    (hpi : ∀ i, m.peerIdentity = some i → ∀ s ∈ i.strings, utf8 s = true)
    (hli : ∀ i, m.localIdentity = some i → ∀ s ∈ i.strings, utf8 s = true) :
    parse utf8 m.serialize = some m := by
  have hd : decode m.serialize = some m.fields := by
    refine decode_encode_short _ ?_ hl
    refine ok_append (ok_append (ok_append (ok_append (ok_append ?_ ?_) ?_) ?_) ?_) ?_
    · exact ok_putBytes (by decide) (by decide)
    · exact ok_putOpt (by decide) (by decide)
    · exact ok_putOpt (by decide) (by decide)
    · exact ok_putOpt (by decide) (by decide)
    · exact ok_putBytes (by decide) (by decide)
    · exact ok_putBytes (by decide) (by decide)
  have e1 : lens 1 m.fields =
      if m.applicationProtocol ≠ [] then [m.applicationProtocol] else [] := by
    simp [fields, lens_putBytes, lens_putOpt]
  have e2 : lens 2 m.fields = (m.state.map SessionState.serialize).toList := by
    simp [fields, lens_putBytes, lens_putOpt]
  have e4 : lens 4 m.fields = (m.peerIdentity.map PIdentity.serialize).toList := by
    simp [fields, lens_putBytes, lens_putOpt]
  have e5 : lens 5 m.fields = (m.localIdentity.map PIdentity.serialize).toList := by
    simp [fields, lens_putBytes, lens_putOpt]
  have e6 : lens 6 m.fields =
      if m.localCertFingerprint ≠ [] then [m.localCertFingerprint] else [] := by
    simp [fields, lens_putBytes, lens_putOpt]
  have e7 : lens 7 m.fields =
      if m.peerCertFingerprint ≠ [] then [m.peerCertFingerprint] else [] := by
    simp [fields, lens_putBytes, lens_putOpt]
  have s2 := getSub_opt SessionState.parse SessionState.serialize 2 m.fields m.state e2
    (fun i h => SessionState.parse_serialize i
      (encode_sub_le (fs := m.fields) (i := 2) hl (by simp [e2, h])) (hs i h).1 (hs i h).2.1
      (hs i h).2.2.1 (hs i h).2.2.2.1 (hs i h).2.2.2.2)
  have s4 := getSub_opt (PIdentity.parse utf8) PIdentity.serialize 4 m.fields m.peerIdentity e4
    (fun i h => PIdentity.parse_serialize utf8 i
      (encode_sub_le (fs := m.fields) (i := 4) hl (by simp [e4, h])) (hpi i h))
  have s5 := getSub_opt (PIdentity.parse utf8) PIdentity.serialize 5 m.fields m.localIdentity e5
    (fun i h => PIdentity.parse_serialize utf8 i
      (encode_sub_le (fs := m.fields) (i := 5) hl (by simp [e5, h])) (hli i h))
  have hc : checkStrings utf8 [1] m.fields = true := by
    simp only [checkStrings, List.all_cons, List.all_nil, e1, Bool.and_true, List.all_eq_true]
    intro s hs
    split at hs
    · simp only [List.mem_singleton] at hs; subst hs; exact hp
    · simp at hs
  unfold parse
  rw [hd]
  simp only [Option.bind_eq_bind, Option.bind_some, hc, s2, s4, s5, getBytes_of e1,
    getBytes_of e6, getBytes_of e7]
  rfl

theorem SessionStatus.parse_serialize (utf8 : Bytes → Bool) (m : SessionStatus)
    (hl : m.serialize.length < 2 ^ 64) (h1 : m.code < 2 ^ 32) (hp : utf8 m.details = true) :
    parse utf8 m.serialize = some m := by
  have hd : decode m.serialize = some m.fields := by
    refine decode_encode_short _ (ok_append ?_ ?_) hl
    · exact ok_putNum (by decide) (by decide) (by omega)
    · exact ok_putBytes (by decide) (by decide)
  have e1 : varints 1 m.fields = if m.code ≠ 0 then [m.code] else [] := by
    simp [fields, varints_putNum]
  have e2 : lens 2 m.fields = if m.details ≠ [] then [m.details] else [] := by
    simp [fields, lens_putBytes]
  have hc : checkStrings utf8 [2] m.fields = true := by
    simp only [checkStrings, List.all_cons, List.all_nil, e2, Bool.and_true, List.all_eq_true]
    intro s hs
    split at hs
    · simp only [List.mem_singleton] at hs; subst hs; exact hp
    · simp at hs
  unfold parse
  rw [hd]
  simp only [Option.bind_eq_bind, Option.bind_some, hc, getU32_of e1 h1, getBytes_of e2]
  rfl

/-- All strings of a response pass the check, and its numbers fit their types. -/
def SessionResp.Ok (utf8 : Bytes → Bool) (m : SessionResp) : Prop :=
  (∀ i, m.localIdentity = some i → ∀ s ∈ i.strings, utf8 s = true) ∧
  m.bytesConsumed < 2 ^ 32 ∧
  (∀ r, m.result = some r → (∀ s, r.state = some s → s.Ok) ∧
    utf8 r.applicationProtocol = true ∧
    (∀ i, r.peerIdentity = some i → ∀ s ∈ i.strings, utf8 s = true) ∧
    (∀ i, r.localIdentity = some i → ∀ s ∈ i.strings, utf8 s = true)) ∧
  (∀ st, m.status = some st → st.code < 2 ^ 32 ∧ utf8 st.details = true)

theorem SessionResp.parse_serialize (utf8 : Bytes → Bool) (m : SessionResp)
    (hl : m.serialize.length < 2 ^ 64) (ho : m.Ok utf8) :
    parse utf8 m.serialize = some m := by
  obtain ⟨hi, hb, hr, hst⟩ := ho
  have hd : decode m.serialize = some m.fields := by
    refine decode_encode_short _ ?_ hl
    refine ok_append (ok_append (ok_append (ok_append ?_ ?_) ?_) ?_) ?_
    · exact ok_putOpt (by decide) (by decide)
    · exact ok_putBytes (by decide) (by decide)
    · exact ok_putNum (by decide) (by decide) (by omega)
    · exact ok_putOpt (by decide) (by decide)
    · exact ok_putOpt (by decide) (by decide)
  have e1 : lens 1 m.fields = (m.localIdentity.map PIdentity.serialize).toList := by
    simp [fields, lens_putBytes, lens_putOpt]
  have e2 : lens 2 m.fields = if m.outFrames ≠ [] then [m.outFrames] else [] := by
    simp [fields, lens_putBytes, lens_putOpt]
  have e3 : varints 3 m.fields = if m.bytesConsumed ≠ 0 then [m.bytesConsumed] else [] := by
    simp [fields, varints_putNum]
  have e4 : lens 4 m.fields = (m.result.map SessionResult.serialize).toList := by
    simp [fields, lens_putBytes, lens_putOpt]
  have e5 : lens 5 m.fields = (m.status.map SessionStatus.serialize).toList := by
    simp [fields, lens_putBytes, lens_putOpt]
  have s1 := getSub_opt (PIdentity.parse utf8) PIdentity.serialize 1 m.fields m.localIdentity e1
    (fun i h => PIdentity.parse_serialize utf8 i
      (encode_sub_le (fs := m.fields) (i := 1) hl (by simp [e1, h])) (hi i h))
  have s4 := getSub_opt (SessionResult.parse utf8) SessionResult.serialize 4 m.fields m.result e4
    (fun i h => SessionResult.parse_serialize utf8 i
      (encode_sub_le (fs := m.fields) (i := 4) hl (by simp [e4, h])) (hr i h).1 (hr i h).2.1
      (hr i h).2.2.1 (hr i h).2.2.2)
  have s5 := getSub_opt (SessionStatus.parse utf8) SessionStatus.serialize 5 m.fields m.status e5
    (fun i h => SessionStatus.parse_serialize utf8 i
      (encode_sub_le (fs := m.fields) (i := 5) hl (by simp [e5, h])) (hst i h).1 (hst i h).2)
  unfold parse
  rw [hd]
  simp only [Option.bind_eq_bind, Option.bind_some, s1, s4, s5, getBytes_of e2, getU32_of e3 hb]

theorem PContext.parse_serialize (utf8 : Bytes → Bool) (m : PContext)
    (hl : m.serialize.length < 2 ^ 64) (h2 : m.tlsVersion < 2 ^ 32)
    (h3 : m.ciphersuite < 2 ^ 32) (hp : utf8 m.applicationProtocol = true)
    (hpi : ∀ i, m.peerIdentity = some i → ∀ s ∈ i.strings, utf8 s = true)
    (hli : ∀ i, m.localIdentity = some i → ∀ s ∈ i.strings, utf8 s = true) :
    parse utf8 m.serialize = some m := by
  have hd : decode m.serialize = some m.fields := by
    refine decode_encode_short _ ?_ hl
    refine ok_append (ok_append (ok_append (ok_append (ok_append (ok_append (ok_append
      ?_ ?_) ?_) ?_) ?_) ?_) ?_) ?_
    · exact ok_putBytes (by decide) (by decide)
    · exact ok_putNum (by decide) (by decide) (by omega)
    · exact ok_putNum (by decide) (by decide) (by omega)
    · exact ok_putOpt (by decide) (by decide)
    · exact ok_putOpt (by decide) (by decide)
    · exact ok_putBytes (by decide) (by decide)
    · exact ok_putBytes (by decide) (by decide)
    · exact ok_putBool (by decide) (by decide)
  have e1 : lens 1 m.fields =
      if m.applicationProtocol ≠ [] then [m.applicationProtocol] else [] := by
    simp [fields, lens_putBytes, lens_putOpt]
  have e2 : varints 2 m.fields = if m.tlsVersion ≠ 0 then [m.tlsVersion] else [] := by
    simp [fields, varints_putNum, varints_putBool]
  have e3 : varints 3 m.fields = if m.ciphersuite ≠ 0 then [m.ciphersuite] else [] := by
    simp [fields, varints_putNum, varints_putBool]
  have e4 : lens 4 m.fields = (m.peerIdentity.map PIdentity.serialize).toList := by
    simp [fields, lens_putBytes, lens_putOpt]
  have e5 : lens 5 m.fields = (m.localIdentity.map PIdentity.serialize).toList := by
    simp [fields, lens_putBytes, lens_putOpt]
  have e6 : lens 6 m.fields =
      if m.peerCertFingerprint ≠ [] then [m.peerCertFingerprint] else [] := by
    simp [fields, lens_putBytes, lens_putOpt]
  have e7 : lens 7 m.fields =
      if m.localCertFingerprint ≠ [] then [m.localCertFingerprint] else [] := by
    simp [fields, lens_putBytes, lens_putOpt]
  have e8 : varints 8 m.fields = if m.isHandshakeResumed then [1] else [] := by
    simp [fields, varints_putNum, varints_putBool]
  have s4 := getSub_opt (PIdentity.parse utf8) PIdentity.serialize 4 m.fields m.peerIdentity e4
    (fun i h => PIdentity.parse_serialize utf8 i
      (encode_sub_le (fs := m.fields) (i := 4) hl (by simp [e4, h])) (hpi i h))
  have s5 := getSub_opt (PIdentity.parse utf8) PIdentity.serialize 5 m.fields m.localIdentity e5
    (fun i h => PIdentity.parse_serialize utf8 i
      (encode_sub_le (fs := m.fields) (i := 5) hl (by simp [e5, h])) (hli i h))
  have hc : checkStrings utf8 [1] m.fields = true := by
    simp only [checkStrings, List.all_cons, List.all_nil, e1, Bool.and_true, List.all_eq_true]
    intro s hs
    split at hs
    · simp only [List.mem_singleton] at hs; subst hs; exact hp
    · simp at hs
  unfold parse
  rw [hd]
  simp only [Option.bind_eq_bind, Option.bind_some, hc, s4, s5, getBytes_of e1, getU32_of e2 h2,
    getU32_of e3 h3, getBytes_of e6, getBytes_of e7, getBool_of e8]
  rfl

end S2A.Proto
