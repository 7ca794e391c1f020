import Verif.Props.Toy
import Verif.Props.Schema
import Verif.Lemmas.CryptoStatus
/-
C102: what the status of an AEAD operation says.  C41: what the status of writing or reading a
context says.
-/
namespace S2A.Aead
open HalfConn (exec_bind_eq_ok)
open Spec (GoodSeal GoodOpen SealFails OpenFails)

/-- `Encrypt`, for all arguments (buffers with a null pointer included) and all failures of the
library: OK exactly if the arguments are good and no call fails; INVALID_ARGUMENT only for bad
arguments; INTERNAL only for a failing call; nothing else. -/
theorem C102_encrypt_status (L : Lib) (f : EvpFault) (c : Crypter) (nonce : Bytes)
    (aad pt : List Iovec) (ob : Bytes) (ha : IntLens aad) (hp : IntLens pt) :
    ∃ r, c.encrypt L f nonce aad pt (.buf ob) = .ok r ∧
      (r.status = .ok ∧ GoodSeal nonce aad pt ob.length ∧ ¬ SealFails L c f aad pt ∨
       r.status = .invalidArgument ∧ ¬ GoodSeal nonce aad pt ob.length ∨
       r.status = .internal ∧ SealFails L c f aad pt) := by
  have hk16 : kTagSize = 16 := rfl
  obtain ⟨st, w, ob', h1, h2, h3, h4, h5⟩ := Crypter.encrypt_spec L f c nonce aad pt ob ha hp
  refine ⟨_, h1, ?_⟩
  have hgood : st = .ok → GoodSeal nonce aad pt ob.length := fun h => by
    obtain ⟨g1, g2, g3, g4, _⟩ := h4 h
    exact ⟨g1, g2, g3, g4⟩
  unfold Crypter.encrypt at h1
  unfold SealFails
  by_cases hb : L.boring = true ∧ c.alg = .chachaPoly
  · rw [if_pos hb]
    rw [if_pos (by simp [hb.1, hb.2])] at h1
    unfold boringEncrypt at h1
    simp only at h1
    split at h1
    · next h => cases h1; exact Or.inr (Or.inl ⟨rfl, fun g => h g.nonce⟩)
    split at h1
    · next h =>
      cases h1
      refine Or.inr (Or.inl ⟨rfl, fun g => ?_⟩)
      rw [hasBadNull_false.2 g.data] at h
      cases h
    split at h1
    · next h =>
      cases h1
      refine Or.inr (Or.inl ⟨rfl, fun g => ?_⟩)
      have := g.data.totalLen_eq
      have := g.room
      omega
    split at h1
    · next h =>
      cases h1
      refine Or.inr (Or.inl ⟨rfl, fun g => ?_⟩)
      rw [hasBadNull_false.2 g.aad] at h
      cases h
    split at h1
    · next h => cases h1; exact Or.inr (Or.inr ⟨rfl, h⟩)
    · next h =>
      simp only [exec_bind_eq_ok] at h1
      obtain ⟨_, _, _, _, _, _, h1⟩ := h1
      cases h1
      exact Or.inl ⟨rfl, hgood rfl, h⟩
  · rw [if_neg hb]
    rw [if_neg (by simpa using hb)] at h1
    unfold evpEncrypt at h1
    simp only at h1
    split at h1
    · next h => cases h1; exact Or.inr (Or.inl ⟨rfl, fun g => h g.nonce⟩)
    split at h1
    · next h => cases h1; exact Or.inr (Or.inr ⟨rfl, Or.inl h⟩)
    next hinit =>
    simp only [exec_bind_eq_ok] at h1
    obtain ⟨x, hx, h1⟩ := h1
    cases x with
    | error e =>
      cases h1
      rcases setAad_error hx with ⟨rfl, e2⟩ | ⟨rfl, j, v, e2, e3, e4⟩
      · exact Or.inr (Or.inl ⟨rfl, fun g => e2 g.aad⟩)
      · exact Or.inr (Or.inr ⟨rfl, Or.inr (Or.inl ⟨j, v, e2, e3, by simpa using e4⟩)⟩)
    | ok cx =>
      obtain ⟨_, haad⟩ := setAad_fine hx
      simp only [exec_bind_eq_ok] at h1
      obtain ⟨⟨ob1, y⟩, hy, h1⟩ := h1
      cases y with
      | error e =>
        cases h1
        rcases encLoop_error hy with ⟨rfl, e2⟩ | ⟨rfl, j, v, e2, e3, e4⟩
        · refine Or.inr (Or.inl ⟨rfl, fun g => ?_⟩)
          rcases e2 with e2 | e2
          · exact e2 g.data
          · have := g.room; omega
        · exact Or.inr (Or.inr ⟨rfl, Or.inr (Or.inr (Or.inl ⟨j, v, e2, e3, by simpa using e4⟩))⟩)
      | ok s =>
        have hupd := encLoop_fine hy
        obtain ⟨c', off, rem⟩ := s
        obtain ⟨ob2, r2, k1, _, k3, _⟩ := encLoop_spec L f pt 0 cx [] ob hp
        simp only [List.nil_append, List.length_nil] at k1
        rw [hy] at k1
        cases k1
        obtain ⟨_, _, _, k4⟩ := k3 _ rfl
        simp only [Prod.mk.injEq, xorKs_length] at k4
        simp only at h1
        split at h1
        · next h => cases h1; exact Or.inr (Or.inr ⟨rfl, Or.inr (Or.inr (Or.inr (Or.inl h)))⟩)
        next hfin =>
        split at h1
        · next h =>
          cases h1
          refine Or.inr (Or.inl ⟨rfl, fun g => ?_⟩)
          have := g.room
          omega
        split at h1
        · next h => cases h1; exact Or.inr (Or.inr ⟨rfl, Or.inr (Or.inr (Or.inr (Or.inr h)))⟩)
        next htag =>
        simp only [exec_bind_eq_ok] at h1
        obtain ⟨_, _, _, _, _, _, h1⟩ := h1
        cases h1
        refine Or.inl ⟨rfl, hgood rfl, ?_⟩
        rintro (h | ⟨j, v, e2, e3, e4⟩ | ⟨j, v, e2, e3, e4⟩ | h | h)
        · exact hinit h
        · rw [show j = 0 + j by omega, haad j v e2 e3] at e4; cases e4
        · rw [show j = 0 + j by omega, hupd j v e2 e3] at e4; cases e4
        · exact hfin h
        · exact htag h

/-- `Decrypt`, for all arguments (buffers with a null pointer included, unless it reads them) and all
failures of the library: OK exactly if the arguments are good, no call fails and the message opens;
INVALID_ARGUMENT only for bad arguments; INTERNAL only for a failing call or a message that does not
open; nothing else. -/
theorem C102_decrypt_status (L : Lib) (f : EvpFault) (c : Crypter) (nonce : Bytes)
    (aad ct : List Iovec) (out : Iovec) (ha : IntLens aad) (hc : IntLens ct) (r : Result)
    (h1 : c.decrypt L f nonce aad ct out = .ok r) :
    r.status = .ok ∧ GoodOpen nonce aad ct out.len ∧ ¬ OpenFails L c f aad ct ∧
      (∃ p, Spec.aeadOpen L c.alg c.key nonce (flat aad) (flat ct) = some p) ∨
    r.status = .invalidArgument ∧ ¬ GoodOpen nonce aad ct out.len ∨
    r.status = .internal ∧ (OpenFails L c f aad ct ∨
      GoodOpen nonce aad ct out.len ∧
      Spec.aeadOpen L c.alg c.key nonce (flat aad) (flat ct) = none) := by
  have hk16 : kTagSize = 16 := rfl
  have ho : out.WF := by
    by_cases h : out.WF
    · exact h
    · unfold Crypter.decrypt boringDecrypt evpDecrypt at h1
      simp [h] at h1
  have hol : out.bytes.length = out.len := ho.len_eq.symm
  -- what a message that opens or does not is
  have opens : ∀ {x : Bytes}, 16 ≤ x.length →
      (L.mac c.alg c.key nonce (flat aad) (x.take (x.length - 16)) = x.drop (x.length - 16) ↔
        ∃ p, Spec.aeadOpen L c.alg c.key nonce (flat aad) x = some p) := by
    intro x hx
    unfold Spec.aeadOpen
    rw [if_neg (by omega)]
    simp only
    split <;> simp_all
  unfold Crypter.decrypt at h1
  unfold OpenFails
  by_cases hb : L.boring = true ∧ c.alg = .chachaPoly
  · rw [if_pos hb]
    rw [if_pos (by simp [hb.1, hb.2])] at h1
    unfold boringDecrypt at h1
    rw [if_neg (by simpa using ho)] at h1
    simp only at h1
    split at h1
    · next h => cases h1; exact Or.inr (Or.inl ⟨rfl, fun g => h g.nonce⟩)
    next hn =>
    split at h1
    · next h =>
      cases h1
      refine Or.inr (Or.inl ⟨rfl, fun g => ?_⟩)
      rw [hasBadNull_false.2 g.data] at h
      cases h
    next hd =>
    have hw : AllWF ct := hasBadNull_false.1 (by simpa using hd)
    have hlen := hw.totalLen_eq
    split at h1
    · next h =>
      cases h1
      refine Or.inr (Or.inl ⟨rfl, fun g => ?_⟩)
      have := g.tag
      omega
    next ht =>
    split at h1
    · next h =>
      cases h1
      refine Or.inr (Or.inl ⟨rfl, fun g => ?_⟩)
      have := g.room
      omega
    next hroom =>
    split at h1
    · next h =>
      cases h1
      refine Or.inr (Or.inl ⟨rfl, fun g => ?_⟩)
      rw [hasBadNull_false.2 g.aad] at h
      cases h
    next hna =>
    have good : GoodOpen nonce aad ct out.len :=
      ⟨by simpa using hn, hasBadNull_false.1 (by simpa using hna), hw, by omega, by omega⟩
    have hop := opens (x := flat ct) good.tag
    split at h1
    · next h =>
      cases h1
      refine Or.inr (Or.inr ⟨rfl, ?_⟩)
      rw [Bool.or_eq_true, decide_eq_true_eq] at h
      rcases h with h | h
      · exact Or.inl h
      · refine Or.inr ⟨good, ?_⟩
        cases hx : Spec.aeadOpen L c.alg c.key nonce (flat aad) (flat ct) with
        | none => rfl
        | some p => exact absurd (hop.2 ⟨p, hx⟩) h
    · next h =>
      simp only [exec_bind_eq_ok] at h1
      obtain ⟨_, _, _, _, _, _, h1⟩ := h1
      cases h1
      rw [Bool.or_eq_true, decide_eq_true_eq] at h
      exact Or.inl ⟨rfl, good, fun h' => h (Or.inl h'),
        hop.1 (Classical.not_not.1 fun h' => h (Or.inr h'))⟩
  · rw [if_neg hb]
    rw [if_neg (by simpa using hb)] at h1
    unfold evpDecrypt at h1
    rw [if_neg (by simpa using ho)] at h1
    simp only at h1
    split at h1
    · next h =>
      cases h1
      refine Or.inr (Or.inl ⟨rfl, fun g => ?_⟩)
      have := g.tag
      have := g.data.totalLen_eq
      omega
    next ht =>
    split at h1
    · next h => cases h1; exact Or.inr (Or.inl ⟨rfl, fun g => h g.nonce⟩)
    next hn =>
    split at h1
    · next h => cases h1; exact Or.inr (Or.inr ⟨rfl, Or.inl (Or.inl h)⟩)
    next hinit =>
    simp only [exec_bind_eq_ok] at h1
    obtain ⟨x, hx, h1⟩ := h1
    cases x with
    | error e =>
      cases h1
      rcases setAad_error hx with ⟨rfl, e2⟩ | ⟨rfl, j, v, e2, e3, e4⟩
      · exact Or.inr (Or.inl ⟨rfl, fun g => e2 g.aad⟩)
      · exact Or.inr (Or.inr ⟨rfl, Or.inl (Or.inr (Or.inl ⟨j, v, e2, e3, by simpa using e4⟩))⟩)
    | ok cx =>
      obtain ⟨hwa, haad⟩ := setAad_fine hx
      obtain ⟨_, hx', h2, _⟩ := setAad_spec f aad 0 ⟨c.alg, c.key, nonce, [], []⟩ ha
      rw [hx] at hx'
      cases hx'
      obtain ⟨_, hcx⟩ := h2 _ rfl
      simp only [exec_bind_eq_ok] at h1
      obtain ⟨⟨ob1, y⟩, hy, h1⟩ := h1
      cases y with
      | error e =>
        cases h1
        rcases decLoop_error hy with ⟨rfl, e2⟩ | ⟨rfl, j, v, e2, e3, e4, e5⟩
        · refine Or.inr (Or.inl ⟨rfl, fun g => ?_⟩)
          rcases e2 with e2 | e2
          · exact e2 g.data
          · have := g.room
            have := g.data.totalLen_eq
            omega
        · exact Or.inr (Or.inr ⟨rfl, Or.inl (Or.inr (Or.inr (Or.inl
            ⟨j, v, e2, e3, e4, by simpa using e5⟩)))⟩)
      | ok s =>
        obtain ⟨hrest, hstop, hupd⟩ := decLoop_fine hy
        simp only at h1
        have key : AllWF ct → s.total = 16 ∧ s.ctx.tag L = L.mac c.alg c.key nonce (flat aad)
            ((flat ct).take ((flat ct).length - 16)) ∧ (flat ct).length - 16 ≤ out.len ∧
            s.cur ++ flat s.rest = (flat ct).drop ((flat ct).length - 16) := by
          intro hw
          obtain ⟨ob2, r2, k1, _, k3, _⟩ := decLoop_spec L f ct 0 cx [] out.bytes (totalLen ct) [] hc hw
            (by simpa using hw.totalLen_eq) (fun _ => rfl) (by omega)
          simp only [List.nil_append, List.length_nil] at k1
          rw [hy] at k1
          cases k1
          obtain ⟨q1, q2, q3, q4, q5, q6, q7⟩ := k3 _ rfl
          simp only [List.nil_append, hw.totalLen_eq, List.length_take] at q1 q3 q6
          refine ⟨q5, ?_, by omega, q6⟩
          rw [q3, hcx]
          simp [Ctx.tag]
        split at h1
        · next h =>
          rcases hstop with hstop | hstop
          · have := (key (hrest (by rw [hstop]; exact allWF_nil))).1
            omega
          · omega
        simp only [exec_bind_eq_ok] at h1
        obtain ⟨t1, ht1, t2, ht2, h1⟩ := h1
        have hwr := gatherTag_wf ht2
        have hw := hrest hwr
        obtain ⟨k1, k2, k3, k4⟩ := key hw
        have hlen := hw.totalLen_eq
        have good : GoodOpen nonce aad ct out.len :=
          ⟨by simpa using hn, hwa, hw, by omega, k3⟩
        have hop := opens (x := flat ct) good.tag
        have ht12 : t2 = (flat ct).drop ((flat ct).length - 16) := by
          have hl : s.cur.length + (flat s.rest).length = 16 := by
            rw [← List.length_append, k4]; simp; omega
          unfold tagAppend at ht1
          split at ht1
          · cases ht1
            rw [gatherTag_spec _ _ hwr (by simp; omega)] at ht2
            cases ht2
            simpa using k4
          · cases ht1
        split at h1
        · cases h1
        split at h1
        · next h => cases h1; exact Or.inr (Or.inr ⟨rfl, Or.inl (Or.inr (Or.inr (Or.inr (Or.inr h))))⟩)
        next htag =>
        rw [k2, ht12] at h1
        split at h1
        · next h =>
          cases h1
          refine Or.inr (Or.inr ⟨rfl, ?_⟩)
          rw [Bool.or_eq_true, decide_eq_true_eq] at h
          rcases h with h | h
          · exact Or.inl (Or.inr (Or.inr (Or.inr (Or.inl h))))
          · refine Or.inr ⟨good, ?_⟩
            cases hx : Spec.aeadOpen L c.alg c.key nonce (flat aad) (flat ct) with
            | none => rfl
            | some p => exact absurd (hop.2 ⟨p, hx⟩) h
        · next h =>
          simp only [exec_bind_eq_ok] at h1
          obtain ⟨_, _, h1⟩ := h1
          cases h1
          rw [Bool.or_eq_true, decide_eq_true_eq] at h
          refine Or.inl ⟨rfl, good, ?_, hop.1 (Classical.not_not.1 fun h' => h (Or.inr h'))⟩
          rintro (h' | ⟨j, v, e2, e3, e4⟩ | ⟨j, v, e2, e3, e4, e5⟩ | h' | h')
          · exact hinit h'
          · rw [show j = 0 + j by omega, haad j v e2 e3] at e4; cases e4
          · rw [show j = 0 + j by omega, hupd j v e2 e3 e4] at e5; cases e5
          · exact h (Or.inl h')
          · exact htag h'

/-- Witness: with good arguments (and an empty buffer among them) a message is sealed and opened; with
the calls for the empty buffers failing as well; and the failures of the calls that are made, one by
one. -/
example :
    let c : Crypter := ⟨.aes128gcm, List.replicate 16 3⟩
    let nonce : Bytes := List.replicate 12 4
    let pt := [.null 0, Iovec.buf [1, 2, 3]]
    let ct := [.buf [], Iovec.buf (Spec.aeadSeal Lib.toy c.alg c.key nonce [9] [1, 2, 3])]
    let enc := fun f => match c.encrypt Lib.toy f nonce [.buf [9]] pt (.buf (zeros 19)) with
      | .ok r => some r.status
      | _ => none
    let dec := fun f => match c.decrypt Lib.toy f nonce [.buf [9]] ct (.buf (zeros 3)) with
      | .ok r => some r.status
      | _ => none
    GoodSeal nonce [.buf [9]] pt 19 ∧ GoodOpen nonce [.buf [9]] ct 3 ∧
    enc .none = some .ok ∧ enc { EvpFault.none with update := fun k => k = 0 } = some .ok ∧
    enc { EvpFault.none with update := fun k => k = 1 } = some .internal ∧
    enc { EvpFault.none with tag := true } = some .internal ∧
    dec .none = some .ok ∧ dec { EvpFault.none with update := fun k => k = 0 } = some .ok ∧
    dec { EvpFault.none with update := fun k => k = 1 } = some .internal ∧
    dec { EvpFault.none with tag := true } = some .internal := by
  refine ⟨⟨by decide, hasBadNull_false.1 rfl, hasBadNull_false.1 rfl, by decide⟩,
    ⟨by decide, hasBadNull_false.1 rfl, hasBadNull_false.1 rfl, ?_, ?_⟩, ?_⟩ <;> decide +kernel

end S2A.Aead

namespace S2A
open Spec (ContextMsg wireTlsVersion wireCiphersuite)

/-- Writing a context: FAILED_PRECONDITION exactly if its TLS version or ciphersuite has no number on
the wire; otherwise INTERNAL if protobuf fails, and the bytes if it does not. -/
theorem C41_serialize_status (fail : Bool) (c : Context) :
    (wireTlsVersion c.tlsVersion = none ∨ wireCiphersuite c.ciphersuite = none →
      c.serialize fail = .error .failedPrecondition) ∧
    (wireTlsVersion c.tlsVersion ≠ none → wireCiphersuite c.ciphersuite ≠ none →
      (fail = true → c.serialize fail = .error .internal) ∧
      (fail = false → ∃ b, c.serialize fail = .ok b)) := by
  unfold Context.serialize
  rw [tlsVersionToProto_eq, ciphersuiteToProto_eq]
  cases wireTlsVersion c.tlsVersion <;> cases wireCiphersuite c.ciphersuite <;> cases fail <;>
    simp [bind, Except.bind, orFail]

/-- Reading a context: INTERNAL exactly if the bytes are no context of the schema; otherwise
FAILED_PRECONDITION if its number for the TLS version or the ciphersuite is not known, and the
context if they are. -/
theorem C41_deserialize_status (utf8 : Bytes → Bool) (b : Bytes) :
    ((∀ m, ¬ ContextMsg utf8 b m) → Context.deserialize utf8 b = .error .internal) ∧
    ∀ m, ContextMsg utf8 b m →
      ((∀ v, wireTlsVersion v ≠ some m.tlsVersion) ∨
          (∀ n, wireCiphersuite n ≠ some m.ciphersuite) →
        Context.deserialize utf8 b = .error .failedPrecondition) ∧
      ((∃ v, wireTlsVersion v = some m.tlsVersion) → (∃ n, wireCiphersuite n = some m.ciphersuite) →
        ∃ c, Context.deserialize utf8 b = .ok c) := by
  unfold Context.deserialize
  constructor
  · intro h
    cases hp : Proto.PContext.parse utf8 b with
    | none => rfl
    | some m => exact absurd ((context_iff _ _ _).1 hp) (h m)
  · intro m hm
    rw [(context_iff _ _ _).2 hm]
    simp only [bind, Except.bind]
    have hv : ∀ {c}, Util.tlsVersionFromProto m.tlsVersion = .error c → c = .failedPrecondition := by
      intro c h
      unfold Util.tlsVersionFromProto at h
      split at h <;> cases h
      rfl
    have hc : ∀ {c}, Util.ciphersuiteFromProto m.ciphersuite = .error c → c = .failedPrecondition := by
      intro c h
      unfold Util.ciphersuiteFromProto at h
      split at h <;> cases h
      rfl
    constructor
    · intro h
      cases h1 : Util.tlsVersionFromProto m.tlsVersion with
      | error c => rw [hv h1]
      | ok v =>
        simp only []
        cases h2 : Util.ciphersuiteFromProto m.ciphersuite with
        | error c => rw [hc h2]
        | ok n =>
          rcases h with h | h
          · exact absurd (Proxy.tlsVersionFromProto_ok.1 h1) (h v)
          · exact absurd (Proxy.ciphersuiteFromProto_ok.1 h2) (h n)
    · rintro ⟨v, h1⟩ ⟨n, h2⟩
      rw [Proxy.tlsVersionFromProto_ok.2 h1, Proxy.ciphersuiteFromProto_ok.2 h2]
      exact ⟨_, rfl⟩

/-- Witness: the three outcomes of reading. -/
example : Context.deserialize (fun _ => true) [255] = .error .internal ∧
    Context.deserialize (fun _ => true) [16, 9] = .error .failedPrecondition ∧
    (Context.deserialize (fun _ => true) []).isOk = true ∧
    (∃ m, ContextMsg (fun _ => true) [16, 9] m ∧ ∀ v, wireTlsVersion v ≠ some m.tlsVersion) :=
  ⟨by decide +kernel, by decide +kernel, by decide +kernel, _,
    (context_iff _ _ _).1 (by rfl), fun v => by cases v <;> simp [wireTlsVersion] <;> decide +kernel⟩

end S2A
