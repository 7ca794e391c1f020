import Verif.Lemmas.Groups
import Verif.Lemmas.Proto
/-
The messages read with the decoder that skips groups, compared with those of Model/Proto.lean.
-/
namespace S2A.Upb
open Wire Proto
open S2A.Spec (groups IsVarint WireField WireMessage)
open S2A.Spec.Upb (IsTag IsField Message IsGroup plain)

/-! ### Plain messages -/

theorem plain_iff {d : Nat} {bs : Bytes} {fs : List Field} :
    plain d bs = some fs ↔ Wire.decode bs = some fs ∧
      ∀ f ∈ fs, f.1 < 2 ^ 29 ∧ ∀ b, f.2 = .len b → b.length < 2 ^ 31 - 1 := by
  have key : ∀ gs : List Field, (gs.all fun f => f.1 < 2 ^ 29 && (match f.2 with
      | .len b => b.length < 2 ^ 31 - 1
      | _ => true)) = true ↔
      ∀ f ∈ gs, f.1 < 2 ^ 29 ∧ ∀ b, f.2 = .len b → b.length < 2 ^ 31 - 1 := by
    intro gs
    rw [List.all_eq_true]
    refine forall_congr' fun f => forall_congr' fun _ => ?_
    obtain ⟨i, v⟩ := f
    cases v <;> simp
  unfold plain
  cases h : Wire.decode bs with
  | none => simp
  | some gs =>
    simp only []
    split
    · next hk =>
      simp only [Option.some.injEq]
      constructor
      · rintro rfl; exact ⟨rfl, (key _).mp hk⟩
      · exact fun h => h.1
    · next hk =>
      simp only [Option.some.injEq]
      constructor
      · intro h; cases h
      · rintro ⟨rfl, h⟩; exact absurd ((key _).mpr h) hk

theorem message_of_wire {d : Nat} {bs : Bytes} {fs : List Field} (h : WireMessage bs fs)
    (hs : ∀ f ∈ fs, f.1 < 2 ^ 29 ∧ ∀ b, f.2 = .len b → b.length < 2 ^ 31 - 1) :
    Message d bs fs := by
  induction h with
  | nil => exact .nil
  | cons hf _ ih =>
    exact .field (field_of_wire hf (hs _ (List.mem_cons_self ..)).1 (hs _ (List.mem_cons_self ..)).2)
      (ih fun f hf => hs f (List.mem_cons_of_mem _ hf))

theorem decode_of_plain {d : Nat} {bs : Bytes} {fs : List Field} (h : plain d bs = some fs) :
    decode d bs = some fs := by
  rw [plain_iff] at h
  exact decode_iff.mpr (message_of_wire (Wire.decode_iff.mp h.1) h.2)

theorem wire_of_plain {d : Nat} {bs : Bytes} {fs : List Field} (h : plain d bs = some fs) :
    Wire.decode bs = some fs := (plain_iff.mp h).1

/-! ### A decoder that reads more -/

section
variable {D E : Nat → Bytes → Option (List Field)} {utf8 : Bytes → Bool}

theorem mapM_mono {α : Type} {p q : Bytes → Option α} (h : ∀ b m, p b = some m → q b = some m) :
    ∀ (l : List Bytes) {ms}, l.mapM p = some ms → l.mapM q = some ms
  | [], _, hp => by simpa using hp
  | b :: l, ms, hp => by
    simp only [List.mapM_cons, Option.bind_eq_bind, Option.bind_eq_some_iff] at hp ⊢
    obtain ⟨m, h1, ns, h2, h3⟩ := hp
    exact ⟨m, h b m h1, ns, mapM_mono h l h2, h3⟩

theorem getSub_mono {α : Type} {p q : Bytes → Option α} (h : ∀ b m, p b = some m → q b = some m)
    {i : Nat} {fs : List Field} {o} (hp : getSub p i fs = some o) : getSub q i fs = some o := by
  unfold getSub at hp ⊢
  split at hp
  · exact hp
  · simp only [Option.bind_eq_bind, Option.bind_eq_some_iff] at hp ⊢
    obtain ⟨ms, h1, m, h2, h3⟩ := hp
    exact ⟨ms, mapM_mono h _ h1, m, h _ _ h2, h3⟩

theorem sub_mono {α : Type} {p q : Nat → Bytes → Option α}
    (h : ∀ d b m, p d b = some m → q d b = some m) (d : Nat) (b : Bytes) (m : α)
    (hp : sub p d b = some m) : sub q d b = some m := by
  cases d with
  | zero => cases hp
  | succ d => exact h d b m hp

theorem entryOk_mono (h : ∀ d b fs, D d b = some fs → E d b = some fs) (d : Nat) (b : Bytes)
    (m : Unit) (hp : entryOk D utf8 d b = some m) : entryOk E utf8 d b = some m := by
  unfold entryOk at hp ⊢
  simp only [Option.bind_eq_bind, Option.bind_eq_some_iff] at hp ⊢
  obtain ⟨fs, h1, h2⟩ := hp
  exact ⟨fs, h d b fs h1, h2⟩

theorem identity_mono (h : ∀ d b fs, D d b = some fs → E d b = some fs) (d : Nat) (b : Bytes)
    (m : PIdentity) (hp : identity D utf8 d b = some m) : identity E utf8 d b = some m := by
  unfold identity at hp ⊢
  simp only [Option.bind_eq_bind, Option.bind_eq_some_iff] at hp ⊢
  obtain ⟨fs, h1, h2⟩ := hp
  refine ⟨fs, h d b fs h1, ?_⟩
  split at h2
  · cases h2
  · next hc =>
    rw [if_neg hc]
    split at h2
    · cases h2
    · next he =>
      rw [if_neg, h2]
      simp only [Bool.not_eq_true', Bool.not_eq_false, List.all_eq_true,
        Option.isSome_iff_exists] at he ⊢
      intro x hx
      obtain ⟨u, hu⟩ := he x hx
      exact ⟨u, sub_mono (entryOk_mono h) d x u hu⟩

theorem sessionState_mono (h : ∀ d b fs, D d b = some fs → E d b = some fs) (d : Nat) (b : Bytes)
    (m : SessionState) (hp : sessionState D d b = some m) : sessionState E d b = some m := by
  unfold sessionState at hp ⊢
  simp only [Option.bind_eq_bind, Option.bind_eq_some_iff] at hp ⊢
  obtain ⟨fs, h1, h2⟩ := hp
  exact ⟨fs, h d b fs h1, h2⟩

theorem sessionStatus_mono (h : ∀ d b fs, D d b = some fs → E d b = some fs) (d : Nat) (b : Bytes)
    (m : SessionStatus) (hp : sessionStatus D utf8 d b = some m) :
    sessionStatus E utf8 d b = some m := by
  unfold sessionStatus at hp ⊢
  simp only [Option.bind_eq_bind, Option.bind_eq_some_iff] at hp ⊢
  obtain ⟨fs, h1, h2⟩ := hp
  exact ⟨fs, h d b fs h1, h2⟩

theorem sessionResult_mono (h : ∀ d b fs, D d b = some fs → E d b = some fs) (d : Nat) (b : Bytes)
    (m : SessionResult) (hp : sessionResult D utf8 d b = some m) :
    sessionResult E utf8 d b = some m := by
  unfold sessionResult at hp ⊢
  simp only [Option.bind_eq_bind, Option.bind_eq_some_iff] at hp ⊢
  obtain ⟨fs, h1, h2⟩ := hp
  refine ⟨fs, h d b fs h1, ?_⟩
  split at h2
  · cases h2
  · next hc =>
    rw [if_neg hc]
    simp only [Option.bind_eq_some_iff] at h2 ⊢
    obtain ⟨st, e1, pi, e2, li, e3, e4⟩ := h2
    exact ⟨st, getSub_mono (sub_mono (sessionState_mono h) d) e1, pi,
      getSub_mono (sub_mono (identity_mono h) d) e2, li,
      getSub_mono (sub_mono (identity_mono h) d) e3, e4⟩

theorem sessionResp_mono (h : ∀ d b fs, D d b = some fs → E d b = some fs) (d : Nat) (b : Bytes)
    (m : SessionResp) (hp : sessionResp D utf8 d b = some m) :
    sessionResp E utf8 d b = some m := by
  unfold sessionResp at hp ⊢
  simp only [Option.bind_eq_bind, Option.bind_eq_some_iff] at hp ⊢
  obtain ⟨fs, h1, li, e1, r, e2, st, e3, e4⟩ := hp
  exact ⟨fs, h d b fs h1, li, getSub_mono (sub_mono (identity_mono h) d) e1, r,
    getSub_mono (sub_mono (sessionResult_mono h) d) e2, st,
    getSub_mono (sub_mono (sessionStatus_mono h) d) e3, e4⟩

theorem context_mono (h : ∀ d b fs, D d b = some fs → E d b = some fs) (d : Nat) (b : Bytes)
    (m : PContext) (hp : context D utf8 d b = some m) : context E utf8 d b = some m := by
  unfold context at hp ⊢
  simp only [Option.bind_eq_bind, Option.bind_eq_some_iff] at hp ⊢
  obtain ⟨fs, h1, h2⟩ := hp
  refine ⟨fs, h d b fs h1, ?_⟩
  split at h2
  · cases h2
  · next hc =>
    rw [if_neg hc]
    simp only [Option.bind_eq_some_iff] at h2 ⊢
    obtain ⟨pi, e2, li, e3, e4⟩ := h2
    exact ⟨pi, getSub_mono (sub_mono (identity_mono h) d) e2, li,
      getSub_mono (sub_mono (identity_mono h) d) e3, e4⟩

end

/-! ### With the plain decoder these are the messages of Model/Proto.lean -/

/-- The plain decoder has no limit on nesting. -/
def wire (_ : Nat) (bs : Bytes) : Option (List Field) := Wire.decode bs

theorem identity_wire (utf8 : Bytes → Bool) (d : Nat) :
    identity wire utf8 (d + 1) = PIdentity.parse utf8 := by
  funext b
  unfold identity PIdentity.parse
  have : ∀ fs : List Field, (lens 3 fs).all (fun b => (sub (entryOk wire utf8) (d + 1) b).isSome) =
      checkEntries utf8 3 fs := by
    intro fs
    unfold checkEntries
    congr 1
    funext x
    show (entryOk wire utf8 d x).isSome = _
    unfold entryOk wire
    cases Wire.decode x with
    | none => rfl
    | some es => simp only [Option.bind_eq_bind, Option.bind_some]; split <;> simp_all
  simp only [this]
  rfl

theorem sessionState_wire (d : Nat) : sessionState wire d = SessionState.parse := rfl

theorem sessionStatus_wire (utf8 : Bytes → Bool) (d : Nat) :
    sessionStatus wire utf8 d = SessionStatus.parse utf8 := rfl

theorem sub_succ {α : Type} (p : Nat → Bytes → Option α) (d : Nat) : sub p (d + 1) = p d := rfl

theorem sessionResult_wire (utf8 : Bytes → Bool) (d : Nat) :
    sessionResult wire utf8 (d + 2) = SessionResult.parse utf8 := by
  funext b
  unfold sessionResult SessionResult.parse
  simp only [sub_succ, identity_wire, sessionState_wire]
  rfl

theorem sessionResp_wire (utf8 : Bytes → Bool) (d : Nat) :
    sessionResp wire utf8 (d + 3) = SessionResp.parse utf8 := by
  funext b
  unfold sessionResp SessionResp.parse
  simp only [sub_succ, identity_wire utf8 (d + 1), sessionResult_wire, sessionStatus_wire]
  rfl

theorem context_wire (utf8 : Bytes → Bool) (d : Nat) :
    context wire utf8 (d + 2) = PContext.parse utf8 := by
  funext b
  unfold context PContext.parse
  simp only [sub_succ, identity_wire]
  rfl

/-! ### What is written is read back -/

theorem sub_short {fs : List Field} {i : Nat} {b : Bytes}
    (hl : (encode fs).length < 2 ^ 31 - 1) (h : b ∈ lens i fs) : b.length < 2 ^ 31 - 1 := by
  simp only [lens, List.mem_filterMap] at h
  obtain ⟨⟨j, v⟩, hf, hb⟩ := h
  cases v with
  | len c =>
    simp only [Val.asLen] at hb
    have hc : c = b := by
      split at hb
      · exact Option.some.inj hb
      · cases hb
    subst hc
    have := len_le_encode hf
    omega
  | _ => simp [Val.asLen] at hb

theorem plain_encode (d : Nat) (fs : List Field) (h : ∀ f ∈ fs, FieldOk' f)
    (hl : (encode fs).length < 2 ^ 31 - 1) : plain d (encode fs) = some fs := by
  refine plain_iff.mpr ⟨decode_encode_short fs h (by omega), fun f hf => ⟨(h f hf).2.1, ?_⟩⟩
  intro b hb
  obtain ⟨i, v⟩ := f
  simp only at hb
  subst hb
  have := len_le_encode hf
  omega

section
variable {D : Nat → Bytes → Option (List Field)} {utf8 : Bytes → Bool}
  (hD : ∀ (d : Nat) (fs : List Field), (∀ f ∈ fs, FieldOk' f) →
    (encode fs).length < 2 ^ 31 - 1 → D d (encode fs) = some fs)
include hD

theorem identity_serialize (d : Nat) (m : PIdentity)
    (hl : m.serialize.length < 2 ^ 31 - 1) (hu : ∀ s ∈ m.strings, utf8 s = true) :
    identity D utf8 d m.serialize = some m := by
  have hd : D d m.serialize = some m.fields := by
    refine hD _ _ ?_ hl
    cases m <;> simp [PIdentity.fields, FieldOk']
  unfold identity
  rw [hd]
  cases m <;>
    simp_all [PIdentity.fields, PIdentity.strings, checkStrings, lens, Val.asLen, PIdentity.ofField]

theorem sessionState_serialize (d : Nat) (m : SessionState) (hl : m.serialize.length < 2 ^ 31 - 1)
    (h1 : m.tlsVersion < 2 ^ 32) (h2 : m.ciphersuite < 2 ^ 32) (h3 : m.inSequence < 2 ^ 64)
    (h4 : m.outSequence < 2 ^ 64) (h9 : m.connectionId < 2 ^ 64) :
    sessionState D d m.serialize = some m := by
  have hd : D d m.serialize = some m.fields := by
    refine hD _ _ ?_ hl
    refine ok_append (ok_append (ok_append (ok_append (ok_append (ok_append (ok_append
      ?_ ?_) ?_) ?_) ?_) ?_) ?_) ?_
    · exact ok_putNum (by decide) (by decide) (by omega)
    · exact ok_putNum (by decide) (by decide) (by omega)
    · exact ok_putNum (by decide) (by decide) (by omega)
    · exact ok_putNum (by decide) (by decide) (by omega)
    · exact ok_putBytes (by decide) (by decide)
    · exact ok_putBytes (by decide) (by decide)
    · exact ok_putNum (by decide) (by decide) (by omega)
    · exact ok_putBool (by decide) (by decide)
  have e1 : varints 1 m.fields = if m.tlsVersion ≠ 0 then [m.tlsVersion] else [] := by
    simp [SessionState.fields, varints_putNum, varints_putBool]
  have e2 : varints 2 m.fields = if m.ciphersuite ≠ 0 then [m.ciphersuite] else [] := by
    simp [SessionState.fields, varints_putNum, varints_putBool]
  have e3 : varints 3 m.fields = if m.inSequence ≠ 0 then [m.inSequence] else [] := by
    simp [SessionState.fields, varints_putNum, varints_putBool]
  have e4 : varints 4 m.fields = if m.outSequence ≠ 0 then [m.outSequence] else [] := by
    simp [SessionState.fields, varints_putNum, varints_putBool]
  have e5 : lens 5 m.fields = if m.inKey ≠ [] then [m.inKey] else [] := by
    simp [SessionState.fields, lens_putBytes]
  have e6 : lens 6 m.fields = if m.outKey ≠ [] then [m.outKey] else [] := by
    simp [SessionState.fields, lens_putBytes]
  have e9 : varints 9 m.fields = if m.connectionId ≠ 0 then [m.connectionId] else [] := by
    simp [SessionState.fields, varints_putNum, varints_putBool]
  have e10 : varints 10 m.fields = if m.isHandshakeResumed then [1] else [] := by
    simp [SessionState.fields, varints_putNum, varints_putBool]
  unfold sessionState
  rw [hd]
  simp only [Option.bind_eq_bind, Option.bind_some, getU32_of e1 h1, getU32_of e2 h2,
    getU64_of e3, getU64_of e4, getBytes_of e5, getBytes_of e6, getU64_of e9, getBool_of e10]

theorem sessionResult_serialize (d : Nat) (m : SessionResult)
    (hl : m.serialize.length < 2 ^ 31 - 1) (hs : ∀ s, m.state = some s → s.Ok)
    (hp : utf8 m.applicationProtocol = true)
    (hpi : ∀ i, m.peerIdentity = some i → ∀ s ∈ i.strings, utf8 s = true)
    (hli : ∀ i, m.localIdentity = some i → ∀ s ∈ i.strings, utf8 s = true) :
    sessionResult D utf8 (d + 1) m.serialize = some m := by
  have hd : D (d + 1) m.serialize = some m.fields := by
    refine hD _ _ ?_ hl
    refine ok_append (ok_append (ok_append (ok_append (ok_append ?_ ?_) ?_) ?_) ?_) ?_
    · exact ok_putBytes (by decide) (by decide)
    · exact ok_putOpt (by decide) (by decide)
    · exact ok_putOpt (by decide) (by decide)
    · exact ok_putOpt (by decide) (by decide)
    · exact ok_putBytes (by decide) (by decide)
    · exact ok_putBytes (by decide) (by decide)
  have e1 : lens 1 m.fields =
      if m.applicationProtocol ≠ [] then [m.applicationProtocol] else [] := by
    simp [SessionResult.fields, lens_putBytes, lens_putOpt]
  have e2 : lens 2 m.fields = (m.state.map SessionState.serialize).toList := by
    simp [SessionResult.fields, lens_putBytes, lens_putOpt]
  have e4 : lens 4 m.fields = (m.peerIdentity.map PIdentity.serialize).toList := by
    simp [SessionResult.fields, lens_putBytes, lens_putOpt]
  have e5 : lens 5 m.fields = (m.localIdentity.map PIdentity.serialize).toList := by
    simp [SessionResult.fields, lens_putBytes, lens_putOpt]
  have e6 : lens 6 m.fields =
      if m.localCertFingerprint ≠ [] then [m.localCertFingerprint] else [] := by
    simp [SessionResult.fields, lens_putBytes, lens_putOpt]
  have e7 : lens 7 m.fields =
      if m.peerCertFingerprint ≠ [] then [m.peerCertFingerprint] else [] := by
    simp [SessionResult.fields, lens_putBytes, lens_putOpt]
  have s2 := getSub_opt (sessionState D d) SessionState.serialize 2 m.fields m.state e2
    (fun i h => sessionState_serialize hD d i
      (sub_short (fs := m.fields) (i := 2) hl (by simp [e2, h])) (hs i h).1 (hs i h).2.1
      (hs i h).2.2.1 (hs i h).2.2.2.1 (hs i h).2.2.2.2)
  have s4 := getSub_opt (identity D utf8 d) PIdentity.serialize 4 m.fields m.peerIdentity e4
    (fun i h => identity_serialize hD d i
      (sub_short (fs := m.fields) (i := 4) hl (by simp [e4, h])) (hpi i h))
  have s5 := getSub_opt (identity D utf8 d) PIdentity.serialize 5 m.fields m.localIdentity e5
    (fun i h => identity_serialize hD d i
      (sub_short (fs := m.fields) (i := 5) hl (by simp [e5, h])) (hli i h))
  have hc : checkStrings utf8 [1] m.fields = true := by
    simp only [checkStrings, List.all_cons, List.all_nil, e1, Bool.and_true, List.all_eq_true]
    intro s hs
    split at hs
    · simp only [List.mem_singleton] at hs; subst hs; exact hp
    · simp at hs
  unfold sessionResult
  rw [hd]
  simp only [Option.bind_eq_bind, Option.bind_some, hc, sub_succ, s2, s4, s5, getBytes_of e1,
    getBytes_of e6, getBytes_of e7]
  rfl

theorem sessionStatus_serialize (d : Nat) (m : SessionStatus)
    (hl : m.serialize.length < 2 ^ 31 - 1) (h1 : m.code < 2 ^ 32) (hp : utf8 m.details = true) :
    sessionStatus D utf8 d m.serialize = some m := by
  have hd : D d m.serialize = some m.fields := by
    refine hD _ _ (ok_append ?_ ?_) hl
    · exact ok_putNum (by decide) (by decide) (by omega)
    · exact ok_putBytes (by decide) (by decide)
  have e1 : varints 1 m.fields = if m.code ≠ 0 then [m.code] else [] := by
    simp [SessionStatus.fields, varints_putNum]
  have e2 : lens 2 m.fields = if m.details ≠ [] then [m.details] else [] := by
    simp [SessionStatus.fields, lens_putBytes]
  have hc : checkStrings utf8 [2] m.fields = true := by
    simp only [checkStrings, List.all_cons, List.all_nil, e2, Bool.and_true, List.all_eq_true]
    intro s hs
    split at hs
    · simp only [List.mem_singleton] at hs; subst hs; exact hp
    · simp at hs
  unfold sessionStatus
  rw [hd]
  simp only [Option.bind_eq_bind, Option.bind_some, hc, getU32_of e1 h1, getBytes_of e2]
  rfl

theorem sessionResp_serialize (d : Nat) (m : SessionResp)
    (hl : m.serialize.length < 2 ^ 31 - 1) (ho : m.Ok utf8) :
    sessionResp D utf8 (d + 2) m.serialize = some m := by
  obtain ⟨hi, hb, hr, hst⟩ := ho
  have hd : D (d + 2) m.serialize = some m.fields := by
    refine hD _ _ ?_ hl
    refine ok_append (ok_append (ok_append (ok_append ?_ ?_) ?_) ?_) ?_
    · exact ok_putOpt (by decide) (by decide)
    · exact ok_putBytes (by decide) (by decide)
    · exact ok_putNum (by decide) (by decide) (by omega)
    · exact ok_putOpt (by decide) (by decide)
    · exact ok_putOpt (by decide) (by decide)
  have e1 : lens 1 m.fields = (m.localIdentity.map PIdentity.serialize).toList := by
    simp [SessionResp.fields, lens_putBytes, lens_putOpt]
  have e2 : lens 2 m.fields = if m.outFrames ≠ [] then [m.outFrames] else [] := by
    simp [SessionResp.fields, lens_putBytes, lens_putOpt]
  have e3 : varints 3 m.fields = if m.bytesConsumed ≠ 0 then [m.bytesConsumed] else [] := by
    simp [SessionResp.fields, varints_putNum]
  have e4 : lens 4 m.fields = (m.result.map SessionResult.serialize).toList := by
    simp [SessionResp.fields, lens_putBytes, lens_putOpt]
  have e5 : lens 5 m.fields = (m.status.map SessionStatus.serialize).toList := by
    simp [SessionResp.fields, lens_putBytes, lens_putOpt]
  have s1 := getSub_opt (identity D utf8 (d + 1)) PIdentity.serialize 1 m.fields m.localIdentity e1
    (fun i h => identity_serialize hD (d + 1) i
      (sub_short (fs := m.fields) (i := 1) hl (by simp [e1, h])) (hi i h))
  have s4 := getSub_opt (sessionResult D utf8 (d + 1)) SessionResult.serialize 4 m.fields m.result e4
    (fun i h => sessionResult_serialize hD d i
      (sub_short (fs := m.fields) (i := 4) hl (by simp [e4, h])) (hr i h).1 (hr i h).2.1
      (hr i h).2.2.1 (hr i h).2.2.2)
  have s5 := getSub_opt (sessionStatus D utf8 (d + 1)) SessionStatus.serialize 5 m.fields m.status e5
    (fun i h => sessionStatus_serialize hD (d + 1) i
      (sub_short (fs := m.fields) (i := 5) hl (by simp [e5, h])) (hst i h).1 (hst i h).2)
  unfold sessionResp
  rw [hd]
  simp only [Option.bind_eq_bind, Option.bind_some, sub_succ, s1, s4, s5, getBytes_of e2, getU32_of e3 hb]

theorem context_serialize (d : Nat) (m : PContext)
    (hl : m.serialize.length < 2 ^ 31 - 1) (h2 : m.tlsVersion < 2 ^ 32)
    (h3 : m.ciphersuite < 2 ^ 32) (hp : utf8 m.applicationProtocol = true)
    (hpi : ∀ i, m.peerIdentity = some i → ∀ s ∈ i.strings, utf8 s = true)
    (hli : ∀ i, m.localIdentity = some i → ∀ s ∈ i.strings, utf8 s = true) :
    context D utf8 (d + 1) m.serialize = some m := by
  have hd : D (d + 1) m.serialize = some m.fields := by
    refine hD _ _ ?_ hl
    refine ok_append (ok_append (ok_append (ok_append (ok_append (ok_append (ok_append
      ?_ ?_) ?_) ?_) ?_) ?_) ?_) ?_
    · exact ok_putBytes (by decide) (by decide)
    · exact ok_putNum (by decide) (by decide) (by omega)
    · exact ok_putNum (by decide) (by decide) (by omega)
    · exact ok_putOpt (by decide) (by decide)
    · exact ok_putOpt (by decide) (by decide)
    · exact ok_putBytes (by decide) (by decide)
    · exact ok_putBytes (by decide) (by decide)
    · exact ok_putBool (by decide) (by decide)
  have e1 : lens 1 m.fields =
      if m.applicationProtocol ≠ [] then [m.applicationProtocol] else [] := by
    simp [PContext.fields, lens_putBytes, lens_putOpt]
  have e2 : varints 2 m.fields = if m.tlsVersion ≠ 0 then [m.tlsVersion] else [] := by
    simp [PContext.fields, varints_putNum, varints_putBool]
  have e3 : varints 3 m.fields = if m.ciphersuite ≠ 0 then [m.ciphersuite] else [] := by
    simp [PContext.fields, varints_putNum, varints_putBool]
  have e4 : lens 4 m.fields = (m.peerIdentity.map PIdentity.serialize).toList := by
    simp [PContext.fields, lens_putBytes, lens_putOpt]
  have e5 : lens 5 m.fields = (m.localIdentity.map PIdentity.serialize).toList := by
    simp [PContext.fields, lens_putBytes, lens_putOpt]
  have e6 : lens 6 m.fields =
      if m.peerCertFingerprint ≠ [] then [m.peerCertFingerprint] else [] := by
    simp [PContext.fields, lens_putBytes, lens_putOpt]
  have e7 : lens 7 m.fields =
      if m.localCertFingerprint ≠ [] then [m.localCertFingerprint] else [] := by
    simp [PContext.fields, lens_putBytes, lens_putOpt]
  have e8 : varints 8 m.fields = if m.isHandshakeResumed then [1] else [] := by
    simp [PContext.fields, varints_putNum, varints_putBool]
  have s4 := getSub_opt (identity D utf8 d) PIdentity.serialize 4 m.fields m.peerIdentity e4
    (fun i h => identity_serialize hD d i
      (sub_short (fs := m.fields) (i := 4) hl (by simp [e4, h])) (hpi i h))
  have s5 := getSub_opt (identity D utf8 d) PIdentity.serialize 5 m.fields m.localIdentity e5
    (fun i h => identity_serialize hD d i
      (sub_short (fs := m.fields) (i := 5) hl (by simp [e5, h])) (hli i h))
  have hc : checkStrings utf8 [1] m.fields = true := by
    simp only [checkStrings, List.all_cons, List.all_nil, e1, Bool.and_true, List.all_eq_true]
    intro s hs
    split at hs
    · simp only [List.mem_singleton] at hs; subst hs; exact hp
    · simp at hs
  unfold context
  rw [hd]
  simp only [Option.bind_eq_bind, Option.bind_some, hc, sub_succ, s4, s5, getBytes_of e1, getU32_of e2 h2,
    getU32_of e3 h3, getBytes_of e6, getBytes_of e7, getBool_of e8]
  rfl

end

end S2A.Upb
