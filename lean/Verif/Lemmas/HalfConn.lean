import Verif.Model.HalfConn
import Verif.Spec.Tls
import Verif.Lemmas.Aead
import Verif.Lemmas.Hkdf
namespace S2A

theorem keyLabel_eq (n : Nat) : labelLen n ++ keySuffix = Spec.hkdfLabel n "key" [] := by
  have h : keySuffix = UInt8.ofNat (Spec.ascii "tls13 " ++ Spec.ascii "key").length ::
      (Spec.ascii "tls13 " ++ Spec.ascii "key") ++ [UInt8.ofNat ([] : Bytes).length] := by decide
  rw [h]; simp [Spec.hkdfLabel, labelLen, Nat.shiftRight_eq_div_pow]

theorem ivLabel_eq (n : Nat) : labelLen n ++ ivSuffix = Spec.hkdfLabel n "iv" [] := by
  have h : ivSuffix = UInt8.ofNat (Spec.ascii "tls13 " ++ Spec.ascii "iv").length ::
      (Spec.ascii "tls13 " ++ Spec.ascii "iv") ++ [UInt8.ofNat ([] : Bytes).length] := by decide
  rw [h]; simp [Spec.hkdfLabel, labelLen, Nat.shiftRight_eq_div_pow]

theorem updLabel_eq (n : Nat) : labelLen n ++ updSuffix = Spec.hkdfLabel n "traffic upd" [] := by
  have h : updSuffix = UInt8.ofNat (Spec.ascii "tls13 " ++ Spec.ascii "traffic upd").length ::
      (Spec.ascii "tls13 " ++ Spec.ascii "traffic upd") ++ [UInt8.ofNat ([] : Bytes).length] := by
    decide
  rw [h]; simp [Spec.hkdfLabel, labelLen, Nat.shiftRight_eq_div_pow]

theorem ciphersuiteToHash_suite (cs : Ciphersuite) (s : Spec.Suite) (h : Spec.suite cs = some s) :
    ciphersuiteToHash cs = .ok s.hash ∧ s.hash ≠ .other ∧ s.keyLen ≤ s.hash.digestSize ∧
      12 ≤ s.hash.digestSize ∧ 0 < s.hash.digestSize ∧
      (s.keyLen + s.hash.digestSize - 1) / s.hash.digestSize ≤ 255 ∧
      (12 + s.hash.digestSize - 1) / s.hash.digestSize ≤ 255 ∧
      (s.hash.digestSize + s.hash.digestSize - 1) / s.hash.digestSize ≤ 255 := by
  cases cs <;> simp only [Spec.suite, reduceCtorEq, Option.some.injEq] at h <;> subst h <;>
    exact ⟨rfl, by decide, by decide, by decide, by decide, by decide, by decide, by decide⟩

/-- Common shape of the three label derivations. -/
theorem derive_spec (L : Lib) (f : HkdfFault) (h : HashFn) (secret out : Bytes)
    (label : String) (hl : h.digestSize ≤ secret.length)
    (ho : h ≠ .other) (hout : out.length ≤ h.digestSize)
    (hn : (out.length + h.digestSize - 1) / h.digestSize ≤ 255) :
    ∃ st out', Hkdf.deriveSecret L f h secret (Spec.hkdfLabel out.length label []) out =
        .ok (st, out') ∧ out'.length = out.length ∧
      (st = .ok → out' = Spec.expandLabel L h secret label [] out.length) ∧
      (st ≠ .ok → out' = out) ∧ (f = .none → st = .ok) := by
  obtain ⟨st, out', h1, h2, h3, h4, h5⟩ :=
    Hkdf.deriveSecret_spec L f h secret (Spec.hkdfLabel out.length label []) out
  refine ⟨st, out', h1, h2, ?_, fun hs => h4 hs hout, fun hf => h5 hf ho hl hn⟩
  intro hs
  exact (h3 hs).2.2.2

namespace HalfConn

/-- Shape invariant of a half connection with suite `s`. -/
structure Good (s : Spec.Suite) (hc : HalfConn) : Prop where
  suite : Spec.suite hc.cs = some s
  keySize : hc.keySize = s.keyLen
  nonce : hc.nonce.length = 12
  secret : hc.secret.length = s.hash.digestSize
  alg : hc.aead.alg = s.alg

theorem createAead_spec (fail : Bool) (cs : Ciphersuite) (s : Spec.Suite) (key : Bytes)
    (h : Spec.suite cs = some s) (hk : key.length = s.keyLen) :
    createAead fail cs key = if fail then .error .internal else .ok ⟨s.alg, key⟩ := by
  cases cs <;> simp only [Spec.suite, reduceCtorEq, Option.some.injEq] at h <;> subst h <;>
    simp only at hk <;>
    simp [createAead, Aead.createAesGcm, Aead.createChachaPoly, hk, Aead.kAes128KeySize]

theorem sizes_suite (cs : Ciphersuite) (s : Spec.Suite) (h : Spec.suite cs = some s) :
    sizes cs = some (s.keyLen, 12, s.hash.digestSize) := by
  cases cs <;> simp only [Spec.suite, reduceCtorEq, Option.some.injEq] at h <;> subst h <;> rfl

theorem suite_none_sizes (cs : Ciphersuite) (h : Spec.suite cs = none) : sizes cs = none := by
  cases cs <;> simp [Spec.suite] at h <;> rfl

/-- The half connection that `Create` builds from a traffic secret. -/
def fresh (L : Lib) (s : Spec.Suite) (cs : Ciphersuite) (sequence : UInt64) (secret : Bytes) :
    HalfConn :=
  { cs := cs, keySize := s.keyLen, seq := sequence, overflowed := false, alwaysFail := false,
    nonce := Spec.trafficIv L s.hash secret, secret := secret,
    aead := ⟨s.alg, Spec.trafficKey L s.hash secret s.keyLen⟩ }

theorem deriveKey_spec (L : Lib) (f : HkdfFault) (cs : Ciphersuite) (s : Spec.Suite)
    (secret out : Bytes) (h : Spec.suite cs = some s) (hs : secret.length = s.hash.digestSize)
    (ho : out.length = s.keyLen) :
    ∃ st out', deriveKey L f cs secret out = .ok (st, out') ∧ out'.length = out.length ∧
      (st = .ok → out' = Spec.trafficKey L s.hash secret s.keyLen) ∧
      (st ≠ .ok → out' = out) ∧ (f = .none → st = .ok) := by
  obtain ⟨c1, c2, c3, c4, c5, c6, c7, c8⟩ := ciphersuiteToHash_suite cs s h
  unfold deriveKey deriveLabel
  rw [c1]
  simp only [keyLabel_eq]
  obtain ⟨st, out', h1, h2, h3, h4, h5⟩ := derive_spec L f s.hash secret out "key" (by omega) c2
    (by omega) (by rw [ho]; exact c6)
  exact ⟨st, out', h1, h2, fun h => by rw [h3 h, ho]; rfl, h4, h5⟩

theorem deriveNonce_spec (L : Lib) (f : HkdfFault) (cs : Ciphersuite) (s : Spec.Suite)
    (secret out : Bytes) (h : Spec.suite cs = some s) (hs : secret.length = s.hash.digestSize)
    (ho : out.length = 12) :
    ∃ st out', deriveNonce L f cs secret out = .ok (st, out') ∧ out'.length = out.length ∧
      (st = .ok → out' = Spec.trafficIv L s.hash secret) ∧
      (st ≠ .ok → out' = out) ∧ (f = .none → st = .ok) := by
  obtain ⟨c1, c2, c3, c4, c5, c6, c7, c8⟩ := ciphersuiteToHash_suite cs s h
  unfold deriveNonce deriveLabel
  rw [c1]
  simp only [ivLabel_eq]
  obtain ⟨st, out', h1, h2, h3, h4, h5⟩ := derive_spec L f s.hash secret out "iv" (by omega) c2
    (by omega) (by rw [ho]; exact c7)
  exact ⟨st, out', h1, h2, fun h => by rw [h3 h, ho]; rfl, h4, h5⟩

theorem advanceSecret_spec (L : Lib) (f : HkdfFault) (cs : Ciphersuite) (s : Spec.Suite)
    (secret : Bytes) (h : Spec.suite cs = some s) (hs : secret.length = s.hash.digestSize) :
    ∃ st out', advanceSecret L f cs secret = .ok (st, out') ∧ out'.length = secret.length ∧
      (st = .ok → out' = Spec.nextSecret L s.hash secret) ∧
      (st ≠ .ok → out' = secret) ∧ (f = .none → st = .ok) := by
  obtain ⟨c1, c2, c3, c4, c5, c6, c7, c8⟩ := ciphersuiteToHash_suite cs s h
  unfold advanceSecret
  rw [c1]
  simp only [updLabel_eq]
  obtain ⟨st, out', h1, h2, h3, h4, h5⟩ := derive_spec L f s.hash secret secret "traffic upd"
    (by omega) c2 (by omega) (by rw [hs]; exact c8)
  exact ⟨st, out', h1, h2, fun h => by rw [h3 h, hs]; rfl, h4, h5⟩

theorem create_spec (L : Lib) (f : KeyFault) (cs : Ciphersuite) (sequence : UInt64)
    (secret : Bytes) :
    ∃ r, create L f cs sequence secret = .ok r ∧
      (∀ hc, r = .ok hc → ∃ s, Spec.suite cs = some s ∧ secret.length = s.hash.digestSize ∧
        hc = fresh L s cs sequence secret) ∧
      (∀ e, r = .error e → e ≠ .ok) ∧
      (∀ s, f = .none → Spec.suite cs = some s → secret.length = s.hash.digestSize →
        r = .ok (fresh L s cs sequence secret)) := by
  unfold create
  cases hs : Spec.suite cs with
  | none =>
    rw [suite_none_sizes cs hs]
    refine ⟨_, rfl, ?_, ?_, ?_⟩
    · rintro _ ⟨⟩
    · rintro _ ⟨⟩; decide
    · rintro s _ ⟨⟩
  | some s =>
    rw [sizes_suite cs s hs]
    simp only []
    by_cases hl : secret.length = s.hash.digestSize
    case neg =>
      rw [if_pos hl]
      refine ⟨_, rfl, ?_, ?_, ?_⟩
      · rintro _ ⟨⟩
      · rintro _ ⟨⟩; decide
      · rintro s' _ h hl'
        cases h
        exact absurd hl' hl
    rw [if_neg (by simpa using hl)]
    obtain ⟨st1, key, k1, k2, k3, k4, k5⟩ :=
      deriveKey_spec L f.key cs s secret (zeros s.keyLen) hs hl (by simp)
    rw [k1, exec_bind_ok]
    by_cases hst1 : st1 = .ok
    case neg =>
      simp only [hst1, ne_eq, not_false_eq_true, if_true, exec_pure]
      refine ⟨_, rfl, ?_, ?_, ?_⟩
      · rintro _ ⟨⟩
      · rintro _ ⟨⟩; exact hst1
      · rintro s' hf _ _
        exact absurd (k5 (by rw [hf]; rfl)) hst1
    obtain ⟨st2, nonce, n1, n2, n3, n4, n5⟩ :=
      deriveNonce_spec L f.nonce cs s secret (zeros 12) hs hl (by simp)
    simp only [hst1, ne_eq, not_true_eq_false, if_false, exec_pure, exec_bind_ok, n1]
    by_cases hst2 : st2 = .ok
    case neg =>
      simp only [hst2, not_false_eq_true, if_true]
      refine ⟨_, rfl, ?_, ?_, ?_⟩
      · rintro _ ⟨⟩
      · rintro _ ⟨⟩; exact hst2
      · rintro s' hf _ _
        exact absurd (n5 (by rw [hf]; rfl)) hst2
    simp only [hst2, not_true_eq_false, if_false]
    rw [createAead_spec f.create cs s key hs (by rw [k2]; simp)]
    by_cases hc : f.create = true
    · simp only [hc, if_true]
      refine ⟨_, rfl, ?_, ?_, ?_⟩
      · rintro _ ⟨⟩
      · rintro _ ⟨⟩; decide
      · rintro s' hf _ _
        rw [hf] at hc
        cases hc
    · simp only [hc]
      refine ⟨_, rfl, ?_, ?_, ?_⟩
      · rintro hc' ⟨⟩
        refine ⟨s, rfl, hl, ?_⟩
        simp [fresh, k3 hst1, n3 hst2]
      · rintro _ ⟨⟩
      · rintro s' hf h _
        cases h
        simp [fresh, k3 hst1, n3 hst2]

theorem expandLabel_length (L : Lib) (h : HashFn) (secret : Bytes) (label : String) (n : Nat)
    (hd : 0 < h.digestSize) : (Spec.expandLabel L h secret label [] n).length = n := by
  unfold Spec.expandLabel
  rw [Hkdf.hkdfExpand_eq, List.length_take, Hkdf.tcat_length]
  have := Hkdf.blocks_mul h.digestSize n hd
  omega

theorem fresh_good (L : Lib) (s : Spec.Suite) (cs : Ciphersuite) (q : UInt64) (secret : Bytes)
    (h : Spec.suite cs = some s) (hl : secret.length = s.hash.digestSize) :
    Good s (fresh L s cs q secret) := by
  obtain ⟨c1, c2, c3, c4, c5, c6, c7, c8⟩ := ciphersuiteToHash_suite cs s h
  exact ⟨h, rfl, expandLabel_length _ _ _ _ _ c5, hl, rfl⟩

/-- The half connection after a successful key update. -/
def updated (L : Lib) (s : Spec.Suite) (hc : HalfConn) : HalfConn :=
  let sec := Spec.nextSecret L s.hash hc.secret
  { hc with secret := sec, nonce := Spec.trafficIv L s.hash sec,
            aead := ⟨s.alg, Spec.trafficKey L s.hash sec s.keyLen⟩, seq := 0,
            overflowed := false }

theorem updated_good (L : Lib) (s : Spec.Suite) (hc : HalfConn) (hg : Good s hc) :
    Good s (updated L s hc) := by
  obtain ⟨c1, c2, c3, c4, c5, c6, c7, c8⟩ := ciphersuiteToHash_suite hc.cs s hg.suite
  exact ⟨hg.suite, hg.keySize, expandLabel_length _ _ _ _ _ c5,
    expandLabel_length _ _ _ _ _ c5, rfl⟩

theorem updateKey_spec (L : Lib) (f : KeyFault) (s : Spec.Suite) (hc : HalfConn)
    (hg : Good s hc) :
    ∃ hc' st, updateKey L f hc = .ok (hc', st) ∧ Good s hc' ∧
      (st = .ok → hc' = updated L s hc) ∧
      (st ≠ .ok → hc'.alwaysFail = true ∧ hc'.seq = hc.seq ∧ hc'.overflowed = hc.overflowed ∧
        hc'.aead = hc.aead) ∧
      (f = .none → st = .ok) := by
  obtain ⟨c1, c2, c3, c4, c5, c6, c7, c8⟩ := ciphersuiteToHash_suite hc.cs s hg.suite
  unfold updateKey
  obtain ⟨st0, sec, a1, a2, a3, a4, a5⟩ :=
    advanceSecret_spec L f.advance hc.cs s hc.secret hg.suite hg.secret
  rw [a1, exec_bind_ok]
  have hsl : sec.length = s.hash.digestSize := by rw [a2, hg.secret]
  by_cases h0 : st0 = .ok
  case neg =>
    simp only [h0, ne_eq, not_false_eq_true, if_true, exec_pure]
    exact ⟨_, _, rfl, ⟨hg.suite, hg.keySize, hg.nonce, hsl, hg.alg⟩, fun h => absurd h h0,
      fun _ => ⟨rfl, rfl, rfl, rfl⟩, fun hf => absurd (a5 (by rw [hf]; rfl)) h0⟩
  obtain ⟨st1, key, k1, k2, k3, k4, k5⟩ :=
    deriveKey_spec L f.key hc.cs s sec (zeros hc.keySize) hg.suite hsl (by simp [hg.keySize])
  simp only [h0, ne_eq, not_true_eq_false, if_false, exec_pure, exec_bind_ok, k1]
  by_cases h1 : st1 = .ok
  case neg =>
    simp only [h1, not_false_eq_true, if_true]
    exact ⟨_, _, rfl, ⟨hg.suite, hg.keySize, hg.nonce, hsl, hg.alg⟩, fun h => absurd h h1,
      fun _ => ⟨rfl, rfl, rfl, rfl⟩, fun hf => absurd (k5 (by rw [hf]; rfl)) h1⟩
  obtain ⟨st2, nonce, n1, n2, n3, n4, n5⟩ :=
    deriveNonce_spec L f.nonce hc.cs s sec hc.nonce hg.suite hsl hg.nonce
  simp only [h1, not_true_eq_false, if_false, exec_bind_ok, n1]
  have hnl : nonce.length = 12 := by rw [n2, hg.nonce]
  by_cases h2 : st2 = .ok
  case neg =>
    simp only [h2, not_false_eq_true, if_true]
    exact ⟨_, _, rfl, ⟨hg.suite, hg.keySize, hnl, hsl, hg.alg⟩, fun h => absurd h h2,
      fun _ => ⟨rfl, rfl, rfl, rfl⟩, fun hf => absurd (n5 (by rw [hf]; rfl)) h2⟩
  simp only [h2, not_true_eq_false, if_false]
  rw [createAead_spec f.create hc.cs s key hg.suite (by rw [k2]; simp [hg.keySize])]
  by_cases hcr : f.create = true
  · simp only [hcr, if_true]
    exact ⟨_, _, rfl, ⟨hg.suite, hg.keySize, hnl, hsl, hg.alg⟩, (by intro h; cases h),
      fun _ => ⟨rfl, rfl, rfl, rfl⟩, fun hf => by rw [hf] at hcr; cases hcr⟩
  · simp only [hcr]
    refine ⟨_, _, rfl, ⟨hg.suite, hg.keySize, hnl, hsl, rfl⟩, ?_, fun h => absurd rfl h,
      fun _ => rfl⟩
    intro _
    simp [updated, a3 h0, k3 h1, n3 h2]

theorem be64_byte (q : UInt64) (i : Nat) (hi : i < 8) :
    (q >>> UInt64.ofNat (56 - 8 * i)).toUInt8 = UInt8.ofNat (q.toNat / 256 ^ (7 - i)) := by
  apply UInt8.toNat_inj.1
  rw [UInt64.toNat_toUInt8, UInt64.toNat_shiftRight, UInt8.toNat_ofNat']
  have h1 : (UInt64.ofNat (56 - 8 * i)).toNat = 56 - 8 * i := by
    rw [UInt64.toNat_ofNat']
    apply Nat.mod_eq_of_lt
    omega
  rw [h1, Nat.mod_eq_of_lt (show 56 - 8 * i < 64 by omega), Nat.shiftRight_eq_div_pow]
  have h2 : 2 ^ (56 - 8 * i) = 256 ^ (7 - i) := by
    rw [show (256 : Nat) = 2 ^ 8 by rfl, ← Nat.pow_mul]; congr 1; omega
  rw [h2]

theorem nonceMask_spec (hc : HalfConn) (h : hc.nonce.length = 12) :
    nonceMask hc = .ok (Spec.recordNonce hc.nonce hc.seq.toNat,
      { hc with seq := hc.seq + 1,
                overflowed := hc.overflowed || decide (hc.seq + 1 = 0) }) := by
  unfold nonceMask
  rw [h, subSize_ok (by omega), exec_bind_ok]
  simp only [exec_pure]
  congr 2
  match hn : hc.nonce, h with
  | [a0, a1, a2, a3, a4, a5, a6, a7, a8, a9, a10, a11], _ =>
    have e0 := be64_byte hc.seq 0 (by omega)
    have e1 := be64_byte hc.seq 1 (by omega)
    have e2 := be64_byte hc.seq 2 (by omega)
    have e3 := be64_byte hc.seq 3 (by omega)
    have e4 := be64_byte hc.seq 4 (by omega)
    have e5 := be64_byte hc.seq 5 (by omega)
    have e6 := be64_byte hc.seq 6 (by omega)
    have e7 := be64_byte hc.seq 7 (by omega)
    simp only [Spec.recordNonce, show List.range 8 = [0, 1, 2, 3, 4, 5, 6, 7] by decide,
      List.foldl_cons, List.foldl_nil, e0, e1, e2, e3, e4, e5, e6, e7, List.map_cons,
      List.map_nil]
    simp [List.modify, List.modifyTailIdx, List.modifyTailIdx.go, List.modifyHead, List.replicate]

end HalfConn
end S2A
