import Verif.Lemmas.HalfConnHist
import Verif.Props.Toy
/-
Property theorems about key derivation and one direction of a connection:
C14, C15, C16, C17, C18, C33 and the half-connection part of C58.
(The same properties for whole connections are lifted in `Props/Crypter.lean`.)
-/
namespace S2A

/-! ## C18: key derivation is RFC 5869 HKDF-Expand -/

/-- Whatever fails inside the library, the entry point has no undefined behaviour, keeps
the size of its output, and reports success only if it filled the output with
`HKDF-Expand(prk, info, L)`.  Taking `out := prk` covers the in-place use. -/
theorem C18_hkdf_sound (L : Lib) (f : HkdfFault) (h : HashFn) (prk info out : Bytes) :
    ∃ st out', Hkdf.deriveSecret L f h prk info out = .ok (st, out') ∧
      out'.length = out.length ∧
      (st = .ok → out' = Spec.hkdfExpand (L.hmac h) h.digestSize prk info out.length) ∧
      (st ≠ .ok → out.length ≤ h.digestSize → out' = out) := by
  obtain ⟨st, out', h1, h2, h3, h4, _⟩ := Hkdf.deriveSecret_spec L f h prk info out
  exact ⟨st, out', h1, h2, fun hs => (h3 hs).2.2.2, h4⟩

/-- If the library does not fail, success is reported exactly for a supported hash, a
pseudo-random key of at least digest size and at most 255 blocks of output. -/
theorem C18_hkdf_success_iff (L : Lib) (h : HashFn) (prk info out : Bytes) :
    (∃ out', Hkdf.deriveSecret L .none h prk info out = .ok (.ok, out')) ↔
      (h = .sha256 ∧ 32 ≤ prk.length ∧ out.length ≤ 255 * 32) ∨
      (h = .sha384 ∧ 48 ≤ prk.length ∧ out.length ≤ 255 * 48) := by
  obtain ⟨st, out', h1, h2, h3, h4, h5⟩ := Hkdf.deriveSecret_spec L .none h prk info out
  constructor
  · rintro ⟨o, ho⟩
    rw [h1] at ho
    cases ho
    obtain ⟨g1, g2, g3, _⟩ := h3 rfl
    cases h with
    | sha256 => left; simp only [HashFn.digestSize] at g2 g3; exact ⟨rfl, g2, by omega⟩
    | sha384 => right; simp only [HashFn.digestSize] at g2 g3; exact ⟨rfl, g2, by omega⟩
    | other => exact absurd rfl g1
  · intro hc
    have : st = .ok := by
      rcases hc with ⟨rfl, a, b⟩ | ⟨rfl, a, b⟩
      · exact h5 rfl (by decide) a (by simp only [HashFn.digestSize]; omega)
      · exact h5 rfl (by decide) a (by simp only [HashFn.digestSize]; omega)
    exact ⟨out', by rw [h1, this]⟩

/-- The status says why: INVALID_ARGUMENT exactly for an unknown hash or a pseudo-random key
that is too short, INTERNAL exactly if that is not the case and more than 255 blocks are asked
for or the library fails where it is used, OK otherwise. -/
theorem C18_hkdf_status (L : Lib) (f : HkdfFault) (h : HashFn) (prk info out : Bytes) :
    ∃ st out', Hkdf.deriveSecret L f h prk info out = .ok (st, out') ∧
      (st = .invalidArgument ↔ h = .other ∨ prk.length < h.digestSize) ∧
      (st = .internal ↔ h ≠ .other ∧ h.digestSize ≤ prk.length ∧
        (255 * h.digestSize < out.length ∨ f.ctxNew = true ∨ f.init = true ∨
          ∃ i, i * h.digestSize < out.length ∧ f.step i = true)) ∧
      (st = .ok ∨ st = .invalidArgument ∨ st = .internal) := by
  obtain ⟨st, out', h1, -, h3, -, -⟩ := Hkdf.deriveSecret_spec L f h prk info out
  refine ⟨st, out', h1, ?_⟩
  have key : ∀ h : HashFn, 0 < h.digestSize → h ≠ .other →
      (if prk.length < h.digestSize then (.ok (.invalidArgument, out) : Exec (StatusCode × Bytes))
        else if (out.length + h.digestSize - 1) / h.digestSize > 255 then .ok (.internal, out)
        else if f.ctxNew then .ok (.internal, out)
        else Hkdf.derivation L h f ((out.length + h.digestSize - 1) / h.digestSize) prk info out) =
          .ok (st, out') →
      (st = .invalidArgument ↔ h = .other ∨ prk.length < h.digestSize) ∧
      (st = .internal ↔ h ≠ .other ∧ h.digestSize ≤ prk.length ∧
        (255 * h.digestSize < out.length ∨ f.ctxNew = true ∨ f.init = true ∨
          ∃ i, i * h.digestSize < out.length ∧ f.step i = true)) ∧
      (st = .ok ∨ st = .invalidArgument ∨ st = .internal) := by
    intro h hd ho he
    have blocks : ∀ i, i < (out.length + h.digestSize - 1) / h.digestSize ↔
        i * h.digestSize < out.length := by
      intro i
      rw [← Nat.succ_le_iff, Nat.le_div_iff_mul_le hd, Nat.succ_mul]
      omega
    by_cases c1 : prk.length < h.digestSize
    · rw [if_pos c1] at he; cases he
      exact ⟨⟨fun _ => .inr c1, fun _ => rfl⟩, ⟨(fun h => by cases h), fun h => by omega⟩,
        .inr (.inl rfl)⟩
    rw [if_neg c1] at he
    have no : ¬ (h = .other ∨ prk.length < h.digestSize) := by
      rintro (h | h)
      · exact ho h
      · exact c1 h
    have int : ∀ (_ : 255 * h.digestSize < out.length ∨ f.ctxNew = true ∨ f.init = true ∨
          ∃ i, i * h.digestSize < out.length ∧ f.step i = true) (_ : st = .internal),
      (st = .invalidArgument ↔ h = .other ∨ prk.length < h.digestSize) ∧
      (st = .internal ↔ h ≠ .other ∧ h.digestSize ≤ prk.length ∧
        (255 * h.digestSize < out.length ∨ f.ctxNew = true ∨ f.init = true ∨
          ∃ i, i * h.digestSize < out.length ∧ f.step i = true)) ∧
      (st = .ok ∨ st = .invalidArgument ∨ st = .internal) := by
      intro hc hst
      subst hst
      exact ⟨⟨(fun h => by cases h), fun h => absurd h no⟩, ⟨fun _ => ⟨ho, by omega, hc⟩, fun _ => rfl⟩,
        .inr (.inr rfl)⟩
    by_cases c2 : (out.length + h.digestSize - 1) / h.digestSize > 255
    · rw [if_pos c2] at he
      cases he
      exact int (.inl ((blocks 255).1 c2)) rfl
    rw [if_neg c2] at he
    by_cases c3 : f.ctxNew = true
    · rw [if_pos c3] at he
      cases he
      exact int (.inr (.inl c3)) rfl
    rw [if_neg c3, Hkdf.derivation] at he
    by_cases c4 : f.init = true
    · rw [if_pos c4] at he
      cases he
      exact int (.inr (.inr (.inl c4))) rfl
    rw [if_neg c4] at he
    rcases Hkdf.loop_code he with ⟨hst, j, _, hj, hf⟩ | ⟨hst, hall⟩
    · exact int (.inr (.inr (.inr ⟨j, (blocks j).1 (by omega), hf⟩))) hst
    · subst hst
      refine ⟨⟨(fun h => by cases h), fun h => absurd h no⟩, ⟨(fun h => by cases h), ?_⟩, .inl rfl⟩
      rintro ⟨_, _, hc | hc | hc | ⟨i, hi, hc⟩⟩
      · exact absurd ((blocks 255).2 hc) (by omega)
      · exact absurd hc c3
      · exact absurd hc c4
      · rw [hall i (by omega) (by have := (blocks i).2 hi; omega)] at hc
        cases hc
  cases h with
  | other =>
    cases h1
    exact ⟨⟨fun _ => .inl rfl, fun _ => rfl⟩, ⟨(fun h => by cases h), fun h => absurd rfl h.1⟩,
      .inr (.inl rfl)⟩
  | sha256 => exact key .sha256 (by decide) (by decide) h1
  | sha384 => exact key .sha384 (by decide) (by decide) h1

/-- An unknown hash; too many blocks; a failure in the second block, which is only noticed if
there is one. -/
example : Hkdf.deriveSecret Lib.toy .none .other (zeros 32) [1] (zeros 3) =
      .ok (.invalidArgument, zeros 3) ∧
    (∃ o, Hkdf.deriveSecret Lib.toy .none .sha256 (zeros 32) [1] (zeros 8161) =
      .ok (.internal, o)) ∧
    (∃ o, Hkdf.deriveSecret Lib.toy { HkdfFault.none with step := fun i => i == 1 } .sha256
      (zeros 32) [1] (zeros 33) = .ok (.internal, o)) ∧
    (∃ o, Hkdf.deriveSecret Lib.toy { HkdfFault.none with step := fun i => i == 1 } .sha256
      (zeros 32) [1] (zeros 32) = .ok (.ok, o)) := by
  refine ⟨rfl, ?_, ⟨_, rfl⟩, ⟨_, rfl⟩⟩
  obtain ⟨st, o, h1, -, h2, -⟩ :=
    C18_hkdf_status Lib.toy .none .sha256 (zeros 32) [1] (zeros 8161)
  exact ⟨o, by rw [h1, h2.2 ⟨by decide, by simp [HashFn.digestSize], .inl (by simp [HashFn.digestSize])⟩]⟩

/-- Two blocks, the second cut short. -/
example : ∃ out', Hkdf.deriveSecret Lib.toy .none .sha256 (zeros 32) [1] (zeros 40) =
    .ok (.ok, out') ∧ out'.length = 40 := ⟨_, rfl, by decide⟩

/-- In-place derivation (as `AdvanceSecret` does it), one block. -/
example : ∃ out', Hkdf.deriveSecret Lib.toy .none .sha384 (zeros 48) [1] (zeros 48) =
    .ok (.ok, out') ∧ out' ≠ zeros 48 := ⟨_, rfl, by decide⟩

namespace HalfConn

/-- A half connection as `Create` returns it. -/
def Created (L : Lib) (cs : Ciphersuite) (seq : UInt64) (secret : Bytes) (hc : HalfConn) : Prop :=
  ∃ f, create L f cs seq secret = .ok (.ok hc)

theorem Created.good {L cs seq secret hc} (h : Created L cs seq secret hc) :
    ∃ s, Spec.suite cs = some s ∧ secret.length = s.hash.digestSize ∧
      hc = fresh L s cs seq secret ∧ Good s hc := by
  obtain ⟨f, h⟩ := h
  obtain ⟨r, h1, h2, _⟩ := create_spec L f cs seq secret
  rw [h] at h1
  cases h1
  obtain ⟨s, a, b, c⟩ := h2 hc rfl
  exact ⟨s, a, b, c, by rw [c]; exact fresh_good L s cs seq secret a b⟩

/-- A 3-record history with a key update on the toy library. -/
def demoOps : List Op :=
  [.encrypt .none [] [.buf [1]] (zeros 17), .encrypt .none [] [.buf [2]] (zeros 3),
   .updateKey .none, .encrypt .none [] [.buf [3]] (zeros 17)]

/-! ## C14: no nonce is reused under one key -/

/-- For every history of encryptions, decryptions and key updates on a half connection,
with any failures: no two AEAD calls with the same number of successful key updates before
them use the same nonce. -/
theorem C14_nonces_unique (L : Lib) (cs : Ciphersuite) (seq : UInt64) (secret : Bytes)
    (hc hc' : HalfConn) (ops : List Op) (evs : List Event)
    (hcr : Created L cs seq secret hc) (h : run L hc ops = .ok (hc', evs)) :
    (Spec.epochNonces 0 (trace evs)).Nodup := by
  obtain ⟨s, _, _, _, hg⟩ := hcr.good
  exact (nonces_inv 0 hg h).1

/-- Three calls, one of them failing (output buffer too small), and a key update. -/
example : ∃ hc hc' evs, Created Lib.toy .aes128GcmSha256 5 (zeros 32) hc ∧
    run Lib.toy hc demoOps = .ok (hc', evs) ∧ (Spec.epochNonces 0 (trace evs)).length = 3 :=
  ⟨_, _, _, ⟨.none, rfl⟩, rfl, by decide⟩

/-! ## C15: sequence-number exhaustion is fail-stop -/

/-- From a half connection that was just created or successfully updated, with sequence
number `s`, exactly the first `2^64 - s` encryptions/decryptions reach the AEAD; all
later ones fail with `INTERNAL` without an AEAD call. -/
theorem C15_exhaustion (L : Lib) (cs : Ciphersuite) (seq : UInt64) (secret : Bytes)
    (hc hc' : HalfConn) (ops : List Op) (evs : List Event)
    (hcr : Created L cs seq secret hc) (haead : ∀ op ∈ ops, op.isAead = true)
    (h : run L hc ops = .ok (hc', evs)) :
    evs.length = ops.length ∧
    ∀ i (hi : i < evs.length),
      (i < 2 ^ 64 - seq.toNat → ∃ c st, evs[i] = .aead (some c) st) ∧
      (2 ^ 64 - seq.toNat ≤ i → evs[i] = .aead none .internal) := by
  obtain ⟨s, _, _, rfl, hg⟩ := hcr.good
  exact exhaustion hg rfl haead (2 ^ 64 - seq.toNat) rfl h

/-- After a successful key update the full 2^64 operations are available again. -/
theorem C15_after_update (L : Lib) (cs : Ciphersuite) (seq : UInt64) (secret : Bytes)
    (hc h1 h2 h3 : HalfConn) (pre ops : List Op) (f : KeyFault) (e1 evs : List Event)
    (hcr : Created L cs seq secret hc) (hpre : run L hc pre = .ok (h1, e1))
    (hok : h1.alwaysFail = false) (hup : updateKey L f h1 = .ok (h2, .ok))
    (haead : ∀ op ∈ ops, op.isAead = true) (h : run L h2 ops = .ok (h3, evs)) :
    ∀ i (hi : i < evs.length),
      (i < 2 ^ 64 → ∃ c st, evs[i] = .aead (some c) st) ∧
      (2 ^ 64 ≤ i → evs[i] = .aead none .internal) := by
  obtain ⟨s, _, _, _, hg⟩ := hcr.good
  have hg1 : Good s h1 := run_good hg hpre
  obtain ⟨hc2, st2, k1, k2, k3, k4, k5⟩ := updateKey_spec L f s h1 hg1
  rw [hup] at k1
  cases k1
  have hu := k3 rfl
  exact (exhaustion k2 (by rw [hu]; exact hok) haead (2 ^ 64) (by rw [hu]; rfl) h).2

/-- The last sequence number can be used, the next call is refused, and after a key update
the connection works again. -/
example : ∃ hc hc' c c' st, Created Lib.toy .aes128GcmSha256 (0 - 1) (zeros 32) hc ∧
    run Lib.toy hc [.encrypt .none [] [.buf [1]] (zeros 17), .encrypt .none [] [] (zeros 17),
      .updateKey .none, .encrypt .none [] [] (zeros 17)] =
      .ok (hc', [.aead (some c) .ok, .aead none .internal, .updated .ok, .aead (some c') st]) :=
  ⟨_, _, _, _, _, ⟨.none, rfl⟩, rfl⟩

/-! ## C16, C17: nonces and keys follow RFC 8446 -/

/-- For every history: each AEAD call uses the traffic key of the secret obtained after as
many "traffic upd" steps as there were successful key updates, and as nonce that secret's
IV XORed with the sequence number, which starts at the given value (0 after an update) and
grows by one with every call. -/
theorem C16_C17_calls_follow_rfc8446 (L : Lib) (cs : Ciphersuite) (s : Spec.Suite)
    (seq : UInt64) (secret : Bytes) (hc hc' : HalfConn) (ops : List Op) (evs : List Event)
    (hs : Spec.suite cs = some s)
    (hcr : Created L cs seq secret hc) (h : run L hc ops = .ok (hc', evs)) :
    Spec.Follows L s secret 0 seq.toNat (trace evs) := by
  obtain ⟨s', a, b, rfl, hg⟩ := hcr.good
  rw [hs] at a
  cases a
  exact follows_run 0 hg ⟨rfl, rfl, rfl⟩ seq.toNat (fun _ => rfl) h

/-- The mask itself, for every IV and 64-bit sequence number. -/
theorem C16_nonce_mask (hc : HalfConn) (h : hc.nonce.length = 12) :
    ∃ hc', nonceMask hc = .ok (Spec.recordNonce hc.nonce hc.seq.toNat, hc') :=
  ⟨_, nonceMask_spec hc h⟩

/-- The spec's nonce on a literal: sequence number 0x0102 changes the last two bytes. -/
example : Spec.recordNonce [9, 9, 9, 9, 9, 9, 9, 9, 9, 9, 9, 9] 0x0102 =
    [9, 9, 9, 9, 9, 9, 9, 9, 9, 9, 8, 11] := by decide

example : ∃ hc hc' evs, Created Lib.toy .aes256GcmSha384 5 (zeros 48) hc ∧
    run Lib.toy hc demoOps = .ok (hc', evs) ∧ evs.length = 4 :=
  ⟨_, _, _, ⟨.none, rfl⟩, rfl, rfl⟩

/-- Key updates that do not fail advance the secret; `n` of them reach the `n`-th secret. -/
theorem C17_n_updates (L : Lib) (cs : Ciphersuite) (s : Spec.Suite) (seq : UInt64)
    (secret : Bytes) (hc : HalfConn) (n : Nat) (hs : Spec.suite cs = some s)
    (hcr : Created L cs seq secret hc) :
    ∃ hc', run L hc (List.replicate n (.updateKey .none)) =
        .ok (hc', List.replicate n (.updated .ok)) ∧
      hc'.secret = Spec.secretAfter L s.hash secret n ∧
      hc'.nonce = Spec.trafficIv L s.hash (Spec.secretAfter L s.hash secret n) ∧
      hc'.aead = ⟨s.alg, Spec.trafficKey L s.hash (Spec.secretAfter L s.hash secret n) s.keyLen⟩ := by
  obtain ⟨s', a, b, rfl, hg⟩ := hcr.good
  rw [hs] at a
  cases a
  have key : ∀ n m hc, Good s hc → hc.secret = Spec.secretAfter L s.hash secret m →
      hc.nonce = Spec.trafficIv L s.hash (Spec.secretAfter L s.hash secret m) →
      hc.aead = ⟨s.alg, Spec.trafficKey L s.hash (Spec.secretAfter L s.hash secret m) s.keyLen⟩ →
      ∃ hc', run L hc (List.replicate n (.updateKey .none)) =
          .ok (hc', List.replicate n (.updated .ok)) ∧
        hc'.secret = Spec.secretAfter L s.hash secret (m + n) ∧
        hc'.nonce = Spec.trafficIv L s.hash (Spec.secretAfter L s.hash secret (m + n)) ∧
        hc'.aead =
          ⟨s.alg, Spec.trafficKey L s.hash (Spec.secretAfter L s.hash secret (m + n)) s.keyLen⟩ := by
    intro n
    induction n with
    | zero => intro m hc _ h1 h2 h3; exact ⟨hc, rfl, h1, h2, h3⟩
    | succ n ih =>
      intro m hc hg h1 h2 h3
      obtain ⟨hc1, st, k1, k2, k3, k4, k5⟩ := updateKey_spec L .none s hc hg
      have hst := k5 rfl
      subst hst
      have hu := k3 rfl
      obtain ⟨hc', r1, r2, r3, r4⟩ := ih (m + 1) hc1 k2
        (by rw [hu]; simp [updated, h1, Spec.secretAfter])
        (by rw [hu]; simp [updated, h1, Spec.secretAfter])
        (by rw [hu]; simp [updated, h1, Spec.secretAfter])
      refine ⟨hc', ?_, ?_, ?_, ?_⟩
      · simp [List.replicate_succ, run, step, k1, r1]
      · rw [r2]; congr 1; omega
      · rw [r3]; congr 2; omega
      · rw [r4]; congr 3; omega
  have := key n 0 _ hg rfl rfl rfl
  simpa using this

/-! ## C33: a failed key update poisons the direction -/

/-- If a key update fails (at whatever step), every later encryption and decryption in
that direction fails with `INTERNAL` and makes no AEAD call, whatever follows. -/
theorem C33_failed_update_poisons (L : Lib) (cs : Ciphersuite) (seq : UInt64) (secret : Bytes)
    (hc hc' : HalfConn) (ops1 ops2 : List Op) (f : KeyFault) (evs1 evs2 : List Event)
    (st : StatusCode) (hcr : Created L cs seq secret hc)
    (h : run L hc (ops1 ++ .updateKey f :: ops2) = .ok (hc', evs1 ++ .updated st :: evs2))
    (hl : evs1.length = ops1.length) (hst : st ≠ .ok) :
    ∀ ev ∈ evs2, ∀ c st', ev = .aead c st' → c = none ∧ st' = .internal := by
  obtain ⟨s, _, _, _, hg⟩ := hcr.good
  obtain ⟨h1, e1, e2, r1, r2, r3, r4⟩ := run_append h
  obtain ⟨q1, q2⟩ := List.append_inj r3 (by omega)
  subst q1
  have hg1 := run_good hg r1
  obtain ⟨h2, ev, es, g1, g2, g3⟩ := run_cons r2
  rw [g3] at q2
  cases q2
  have hstep := step_inv hg1 g1
  rcases hstep with ⟨_, _, _, c⟩ | ⟨_, _, _, _, _, _, c⟩ | ⟨_, a, b⟩ | ⟨_, a, b, st', c, d⟩
  · cases c
  · cases c
  · cases b; exact absurd rfl hst
  · intro ev hev c st' he
    rcases (alwaysFail_run b a g2).2 ev hev with h | ⟨_, h⟩
    · rw [h] at he; cases he; exact ⟨rfl, rfl⟩
    · rw [h] at he; cases he

/-- An update whose last step (creating the cipher) fails: the next encryption is refused.
A second update then reports success, but the direction stays dead. -/
theorem C33_later_update_may_report_ok :
    ∃ hc hc', Created Lib.toy .aes128GcmSha256 0 (zeros 32) hc ∧
      run Lib.toy hc [.updateKey { KeyFault.none with create := true },
        .encrypt .none [] [] (zeros 16), .updateKey .none, .encrypt .none [] [] (zeros 16)] =
        .ok (hc', [.updated .internal, .aead none .internal, .updated .ok,
          .aead none .internal]) :=
  ⟨_, _, ⟨.none, rfl⟩, rfl⟩

/-! ## C58 (half-connection part) -/

/-- A half connection is created only for a known ciphersuite and a traffic secret of the
size of its hash; and always then, if the library does not fail. -/
theorem C58_half_connection_creation (L : Lib) (cs : Ciphersuite) (seq : UInt64)
    (secret : Bytes) :
    (∀ f, ∃ r, create L f cs seq secret = .ok r) ∧
    (∀ hc, Created L cs seq secret hc → ∃ s, Spec.suite cs = some s ∧
      secret.length = s.hash.digestSize) ∧
    (∀ s, Spec.suite cs = some s → secret.length = s.hash.digestSize →
      ∃ hc, create L .none cs seq secret = .ok (.ok hc)) := by
  refine ⟨fun f => ?_, fun hc h => ?_, fun s hs hl => ?_⟩
  · obtain ⟨r, h, _⟩ := create_spec L f cs seq secret
    exact ⟨r, h⟩
  · obtain ⟨s, a, b, _⟩ := h.good
    exact ⟨s, a, b⟩
  · obtain ⟨r, h1, _, _, h4⟩ := create_spec L .none cs seq secret
    exact ⟨_, by rw [h1, h4 s rfl hs hl]⟩

example : create Lib.toy .none .aes256GcmSha384 0 (zeros 32) = .ok (.error .invalidArgument) ∧
    ∃ hc, create Lib.toy .none .aes256GcmSha384 0 (zeros 48) = .ok (.ok hc) :=
  ⟨rfl, _, rfl⟩

end HalfConn
end S2A
