import Verif.Lemmas.AeadStatus
import Verif.Props.Toy
/-
Property theorems about the AEAD crypters (src/crypto): C34, C35, C36, C37, C38 and the
AEAD part of C58.

`IntLens vs`: every buffer is shorter than 2^31 bytes (`static_cast<int>` in the code).
`AllWF vs`: a buffer is null only if its length is 0.
-/
namespace S2A.Aead

/-! ## C34: AEAD ignores buffer splits -/

/-- Encryption: two calls whose associated data and plaintext have the same
concatenations report the same status and size, and on success write the same bytes. -/
theorem C34_encrypt_ignores_split (L : Lib) (c : Crypter) (nonce : Bytes)
    (aad aad' pt pt' : List Iovec) (out : Bytes)
    (hi : IntLens aad ∧ IntLens aad' ∧ IntLens pt ∧ IntLens pt')
    (hw : AllWF aad ∧ AllWF aad' ∧ AllWF pt ∧ AllWF pt')
    (ha : flat aad = flat aad') (hp : flat pt = flat pt') :
    ∃ r r', c.encrypt L .none nonce aad pt (.buf out) = .ok r ∧
      c.encrypt L .none nonce aad' pt' (.buf out) = .ok r' ∧
      r.status = r'.status ∧ r.written = r'.written ∧ (r.status = .ok → r.out = r'.out) := by
  obtain ⟨i1, i2, i3, i4⟩ := hi
  obtain ⟨w1, w2, w3, w4⟩ := hw
  obtain ⟨w, o, h⟩ := encrypt_status L c nonce aad pt out i1 i3 w1 w3
  obtain ⟨w', o', h'⟩ := encrypt_status L c nonce aad' pt' out i2 i4 w2 w4
  obtain ⟨st, v, b, g1, g2, g3, g4, g5⟩ := Crypter.encrypt_spec L .none c nonce aad pt out i1 i3
  obtain ⟨st', v', b', g1', g2', g3', g4', g5'⟩ :=
    Crypter.encrypt_spec L .none c nonce aad' pt' out i2 i4
  rw [h] at g1
  rw [h'] at g1'
  cases g1
  cases g1'
  refine ⟨_, _, h, h', by simp [hp], ?_, ?_⟩
  · simp only [hp] at g3 g4
    by_cases hc : (if nonce.length = 12 ∧ (flat pt').length + 16 ≤ out.length then
        StatusCode.ok else .invalidArgument) = .ok
    · simp only; rw [(g4 hc).2.2.2.2.1, (g4' hc).2.2.2.2.1]
    · simp only; rw [g3 hc, g3' hc]
  · intro hc
    simp only [hp, ha] at hc g4
    simp only
    rw [(g4 hc).2.2.2.2.2, (g4' hc).2.2.2.2.2]

/-- Decryption: same statement; if the output buffer is large enough the output agrees
also on failure. -/
theorem C34_decrypt_ignores_split (L : Lib) (c : Crypter) (nonce : Bytes)
    (aad aad' ct ct' : List Iovec) (out : Iovec)
    (hi : IntLens aad ∧ IntLens aad' ∧ IntLens ct ∧ IntLens ct')
    (hw : AllWF aad ∧ AllWF aad' ∧ AllWF ct ∧ AllWF ct') (ho : out.WF)
    (ha : flat aad = flat aad') (hc : flat ct = flat ct') :
    ∃ r r', c.decrypt L .none nonce aad ct out = .ok r ∧
      c.decrypt L .none nonce aad' ct' out = .ok r' ∧
      r.status = r'.status ∧ r.written = r'.written ∧
      (r.status = .ok ∨
        (nonce.length = 12 ∧ 16 ≤ (flat ct).length ∧ (flat ct).length - 16 ≤ out.len) →
        r.out = r'.out) := by
  obtain ⟨i1, i2, i3, i4⟩ := hi
  obtain ⟨w1, w2, w3, w4⟩ := hw
  obtain ⟨w, o, h⟩ := decrypt_status L c nonce aad ct out i1 i3 w1 w3 ho
  obtain ⟨w', o', h'⟩ := decrypt_status L c nonce aad' ct' out i2 i4 w2 w4 ho
  obtain ⟨st, v, b, g1, g2, g3, g4, g5, g6⟩ :=
    Crypter.decrypt_spec L .none c nonce aad ct out i1 i3 w3 ho
  obtain ⟨st', v', b', g1', g2', g3', g4', g5', g6'⟩ :=
    Crypter.decrypt_spec L .none c nonce aad' ct' out i2 i4 w4 ho
  rw [h] at g1
  rw [h'] at g1'
  cases g1
  cases g1'
  rw [ha, hc] at h g3 g4 g6
  refine ⟨_, _, h, h', rfl, ?_, ?_⟩
  · by_cases hs : decStatus L c nonce (flat aad') (flat ct') out.len = .ok
    · obtain ⟨_, _, p, p1, p2, _⟩ := g4 hs
      obtain ⟨_, _, q, q1, q2, _⟩ := g4' hs
      rw [p1] at q1; cases q1
      simp only; omega
    · simp only
      rw [(g3 hs).1, (g3' hs).1]
  · intro hor
    by_cases hs : decStatus L c nonce (flat aad') (flat ct') out.len = .ok
    · obtain ⟨_, _, p, p1, _, _, p2⟩ := g4 hs
      obtain ⟨_, _, q, q1, _, _, q2⟩ := g4' hs
      rw [p1] at q1; cases q1
      simp only [p2, q2]
    · rcases hor with hor | hor
      · exact absurd hor hs
      · rw [hc] at hor
        simp only
        rw [g6 rfl hor.1 w1 hor.2.2 hor.2.1 hs, g6' rfl hor.1 w2 hor.2.2 hor.2.1 hs]

/-- The hypotheses are met by a split with null and empty buffers. -/
example : IntLens [.buf [1, 2], .null 0, .buf [], .buf [3]] ∧
    AllWF [.buf [1, 2], .null 0, .buf [], .buf [3]] ∧
    flat [.buf [1, 2], .null 0, .buf [], .buf [3]] = flat [.buf [1, 2, 3]] ∧
    ((⟨.aes128gcm, [1, 2]⟩ : Crypter).encrypt Lib.toy .none (zeros 12) []
      [.buf [1, 2], .null 0, .buf [], .buf [3]] (.buf (zeros 20))).toOption.map
        (fun r => (r.status, r.written)) = some (.ok, 19) := by
  refine ⟨?_, ?_, by decide, by decide⟩
  · intro v hv; simp at hv; rcases hv with rfl | rfl | rfl | rfl <;> decide
  · intro v hv; simp at hv; rcases hv with rfl | rfl | rfl | rfl <;> decide

/-! ## C35: AEAD round trip -/

theorem C35_round_trip (L : Lib) (c : Crypter) (nonce : Bytes) (aad pt : List Iovec)
    (out : Bytes) (hn : nonce.length = 12) (ia : IntLens aad) (ip : IntLens pt)
    (wa : AllWF aad) (wp : AllWF pt) (room : (flat pt).length + 16 ≤ out.length) :
    ∃ out', c.encrypt L .none nonce aad pt (.buf out) =
        .ok ⟨.ok, (flat pt).length + 16, .buf out'⟩ ∧
      out'.drop ((flat pt).length + 16) = out.drop ((flat pt).length + 16) ∧
      ∀ (aad' ct : List Iovec) (dst : Iovec), IntLens aad' → IntLens ct → AllWF aad' →
        AllWF ct → dst.WF → flat aad' = flat aad →
        flat ct = out'.take ((flat pt).length + 16) → (flat pt).length ≤ dst.len →
        ∃ dst', c.decrypt L .none nonce aad' ct dst = .ok ⟨.ok, (flat pt).length, dst'⟩ ∧
          dst'.bytes = flat pt ++ dst.bytes.drop (flat pt).length := by
  obtain ⟨st, w, ob', h1, h2, h3, h4, h5⟩ :=
    Crypter.encrypt_spec L .none c nonce aad pt out ia ip
  have hst := h5 rfl hn wa wp room
  obtain ⟨g1, g2, g3, g4, g5, g6⟩ := h4 hst
  have hsl := aeadSeal_length L c.alg c.key nonce (flat aad) (flat pt)
  refine ⟨ob', by rw [h1, hst, g5], ?_, ?_⟩
  · rw [g6, List.drop_append, ← hsl]
    simp
  · intro aad' ct dst ia' ic wa' wc wd ha hct hroom
    have hct' : flat ct = Spec.aeadSeal L c.alg c.key nonce (flat aad) (flat pt) := by
      rw [hct, g6, ← hsl]; simp
    have hopen := aeadOpen_aeadSeal L c.alg c.key nonce (flat aad) (flat pt)
    obtain ⟨st', w', o', k1, k2, k3, k4, k5, k6⟩ :=
      Crypter.decrypt_spec L .none c nonce aad' ct dst ia' ic wc wd
    have hst' := k5 rfl hn wa' (by rw [hct', hsl]; omega) ⟨_, by rw [ha, hct']; exact hopen⟩
    obtain ⟨_, _, p, p1, p2, p3, p4⟩ := k4 hst'
    rw [ha, hct', hopen] at p1
    cases p1
    refine ⟨dst.setBytes o', by rw [k1, hst', p2], ?_⟩
    rw [Iovec.bytes_setBytes wd k2, p4]

example : ∃ out', ((⟨.chachaPoly, zeros 32⟩ : Crypter).encrypt (Lib.toy true) .none (zeros 12)
    [.buf [9]] [.buf [1], .null 0, .buf [2, 3]] (.buf (zeros 19))) =
      .ok ⟨.ok, 19, .buf out'⟩ ∧ out' ≠ zeros 19 := ⟨_, rfl, by decide⟩

/-! ## C36: the AEAD stays inside its buffers -/

/-- Encryption has no undefined behaviour (no access outside a buffer, no null access, no
size underflow), whatever the inputs (well formed or not), output size and library
failures; and it writes nothing outside the reported part of the output on success. -/
theorem C36_encrypt_in_bounds (L : Lib) (f : EvpFault) (c : Crypter) (nonce : Bytes)
    (aad pt : List Iovec) (out : Bytes) (ia : IntLens aad) (ip : IntLens pt) :
    ∃ st w out', c.encrypt L f nonce aad pt (.buf out) = .ok ⟨st, w, .buf out'⟩ ∧
      out'.length = out.length ∧ w ≤ out.length ∧
      (st = .ok → out'.drop w = out.drop w) ∧ (st ≠ .ok → w = 0) := by
  obtain ⟨st, w, ob', h1, h2, h3, h4, h5⟩ := Crypter.encrypt_spec L f c nonce aad pt out ia ip
  refine ⟨st, w, ob', h1, h2, ?_, ?_, h3⟩
  · by_cases hs : st = .ok
    · have := h4 hs; omega
    · rw [h3 hs]; omega
  · intro hs
    obtain ⟨_, _, _, _, g5, g6⟩ := h4 hs
    rw [g6, g5, List.drop_append, ← aeadSeal_length L c.alg c.key nonce (flat aad) (flat pt)]
    simp

/-- Decryption has no undefined behaviour for well-formed ciphertext buffers; on success
the tag checked is exactly the last 16 bytes of the concatenated input, wherever the
buffer boundaries fall, and exactly the remaining bytes are decrypted. -/
theorem C36_decrypt_in_bounds (L : Lib) (f : EvpFault) (c : Crypter) (nonce : Bytes)
    (aad ct : List Iovec) (out : Iovec) (ia : IntLens aad) (ic : IntLens ct) (wc : AllWF ct)
    (wo : out.WF) :
    ∃ st w out', c.decrypt L f nonce aad ct out = .ok ⟨st, w, out'⟩ ∧
      out'.bytes.length = out.len ∧ w ≤ out.len ∧
      (st = .ok → 16 ≤ (flat ct).length ∧ w = (flat ct).length - 16 ∧
        (flat ct).drop w = L.mac c.alg c.key nonce (flat aad) ((flat ct).take w) ∧
        out'.bytes = Spec.stream (L.ks c.alg c.key nonce) ((flat ct).take w) ++
          out.bytes.drop w) ∧
      (st ≠ .ok → w = 0) := by
  obtain ⟨st, w, ob', h1, h2, h3, h4, h5, h6⟩ :=
    Crypter.decrypt_spec L f c nonce aad ct out ia ic wc wo
  have hb := Iovec.bytes_setBytes wo h2
  refine ⟨st, w, _, h1, by rw [hb, h2], ?_, ?_, fun h => (h3 h).1⟩
  · by_cases hs : st = .ok
    · obtain ⟨_, _, p, p1, p2, p3, _⟩ := h4 hs; omega
    · rw [(h3 hs).1]; omega
  · intro hs
    obtain ⟨_, _, p, p1, p2, p3, p4⟩ := h4 hs
    have hl := aeadOpen_length p1
    have hw : w = (flat ct).length - 16 := by omega
    unfold Spec.aeadOpen at p1
    rw [if_neg (by omega), ← hw] at p1
    by_cases hm : L.mac c.alg c.key nonce (flat aad) ((flat ct).take w) = (flat ct).drop w
    · simp only [hm, if_true, Option.some.injEq] at p1
      exact ⟨hl.1, hw, hm.symm, by rw [hb, p4, p1, p2]⟩
    · simp [hm] at p1

/-- A failing library call in the middle of a decryption over three buffers. -/
example : ((⟨.aes128gcm, [1]⟩ : Crypter).decrypt Lib.toy { EvpFault.none with update := fun i => i == 1 }
    (zeros 12) [] [.buf [1, 2], .buf [3], .buf (zeros 16)] (.buf [8, 8, 8])).toOption =
      some ⟨.internal, 0, .buf [0, 0, 0]⟩ := by decide

/-- Well-formedness of the ciphertext buffers is needed: in the OpenSSL implementation a
null buffer of non-zero length at the place of the tag is dereferenced
(src/crypto/aes_gcm_crypter.cc:384-390), where the same buffer at the place of the
ciphertext is refused with a status. -/
theorem C36_null_tag_buffer_dereferenced :
    (⟨.aes128gcm, zeros 16⟩ : Crypter).decrypt Lib.toy .none (zeros 12) []
      [.buf [1], .null 16] (.buf [0]) = .error .nullDeref := by decide

/-! ## C37: a failed decryption leaves no plaintext -/

/-- If the output buffer is large enough for the plaintext, a failed decryption reports
zero bytes and leaves the output buffer as it was or all zero.  Missing from the full
property: output buffers that are too small, see the next theorem. -/
theorem C37_no_plaintext_on_failure_partial (L : Lib) (f : EvpFault) (c : Crypter)
    (nonce : Bytes) (aad ct : List Iovec) (out : Iovec) (ia : IntLens aad) (ic : IntLens ct)
    (wc : AllWF ct) (wo : out.WF) (room : (flat ct).length - 16 ≤ out.len) :
    ∃ r, c.decrypt L f nonce aad ct out = .ok r ∧
      (r.status ≠ .ok → r.written = 0 ∧ (r.out = out ∨ r.out.bytes = zeros out.len)) := by
  obtain ⟨st, w, ob', h1, h2, h3, h4, h5, h6⟩ :=
    Crypter.decrypt_spec L f c nonce aad ct out ia ic wc wo
  refine ⟨_, h1, fun hs => ?_⟩
  obtain ⟨g1, g2 | g2 | g2⟩ := h3 hs
  · exact ⟨g1, Or.inl (by simp [g2, Iovec.setBytes_bytes wo])⟩
  · exact ⟨g1, Or.inr (by simp only; rw [Iovec.bytes_setBytes wo h2, g2])⟩
  · omega

/-- When the tag does not verify (and nothing else fails) the output is all zero. -/
theorem C37_forged_leaves_zeros (L : Lib) (c : Crypter)
    (nonce : Bytes) (aad ct : List Iovec) (out : Iovec) (ia : IntLens aad) (ic : IntLens ct)
    (wa : AllWF aad) (wc : AllWF ct) (wo : out.WF) (hn : nonce.length = 12)
    (room : (flat ct).length - 16 ≤ out.len) (h16 : 16 ≤ (flat ct).length)
    (forged : L.mac c.alg c.key nonce (flat aad) ((flat ct).take ((flat ct).length - 16)) ≠
      (flat ct).drop ((flat ct).length - 16)) :
    ∃ r, c.decrypt L .none nonce aad ct out = .ok r ∧ r.status = .internal ∧ r.written = 0 ∧
      r.out.bytes = zeros out.len := by
  obtain ⟨w, o, h⟩ := decrypt_status L c nonce aad ct out ia ic wa wc wo
  have hst : decStatus L c nonce (flat aad) (flat ct) out.len = .internal := by
    unfold decStatus
    rw [if_pos ⟨hn, h16, room⟩]
    unfold Spec.aeadOpen
    rw [if_neg (by omega)]
    simp [forged]
  rw [hst] at h
  obtain ⟨st, w', ob', h1, h2, h3, h4, h5, h6⟩ :=
    Crypter.decrypt_spec L .none c nonce aad ct out ia ic wc wo
  rw [h] at h1
  cases h1
  refine ⟨_, h, rfl, (h3 (by decide)).1, ?_⟩
  rw [Iovec.bytes_setBytes wo h2, h6 rfl hn wa room h16 (by decide)]

example : ((⟨.aes128gcm, [1]⟩ : Crypter).decrypt Lib.toy .none
    (zeros 12) [] [.buf [1, 2], .buf [3], .buf (zeros 16)] (.buf [8, 8, 8])).toOption =
      some ⟨.internal, 0, .buf [0, 0, 0]⟩ := by decide

/-- The full property is false: with an output buffer that is too small and a ciphertext
in several buffers, the OpenSSL implementation decrypts the first buffers, reports an error
and leaves the decrypted bytes in place (src/crypto/aes_gcm_crypter.cc:337-343 returns
without clearing).  Here the third byte of the input does not fit, and the first two bytes
of the output are the decryption of the unauthenticated input. -/
theorem C37_too_small_output_keeps_plaintext :
    ∃ (c : Crypter) (ct : List Iovec) (o : Bytes),
      c.decrypt Lib.toy .none (zeros 12) [] ct (.buf [0, 0]) =
        .ok ⟨.invalidArgument, 0, .buf o⟩ ∧
      o = Spec.stream (Lib.toy.ks c.alg c.key (zeros 12)) ((flat ct).take 2) ∧ o ≠ [0, 0] :=
  ⟨⟨.aes128gcm, [1]⟩, [.buf [1, 2], .buf [3], .buf (zeros 16)], _, rfl, by decide, by decide⟩

/-! ## C38: OpenSSL and BoringSSL builds interoperate -/

/-- The library with the ChaCha20-Poly1305 implementation of the other build. -/
def withBuild (L : Lib) (b : Bool) : Lib := { L with boring := b }

/-- On the same (well-formed) inputs both builds give the same status and size, and on
success the same output. -/
theorem C38_encrypt_builds_agree (L : Lib) (c : Crypter) (nonce : Bytes)
    (aad pt : List Iovec) (out : Bytes) (ia : IntLens aad) (ip : IntLens pt)
    (wa : AllWF aad) (wp : AllWF pt) :
    ∃ r r', c.encrypt (withBuild L true) .none nonce aad pt (.buf out) = .ok r ∧
      c.encrypt (withBuild L false) .none nonce aad pt (.buf out) = .ok r' ∧
      r.status = r'.status ∧ r.written = r'.written ∧ (r.status = .ok → r.out = r'.out) := by
  obtain ⟨w, o, h⟩ := encrypt_status (withBuild L true) c nonce aad pt out ia ip wa wp
  obtain ⟨w', o', h'⟩ := encrypt_status (withBuild L false) c nonce aad pt out ia ip wa wp
  obtain ⟨st, v, b, g1, g2, g3, g4, g5⟩ :=
    Crypter.encrypt_spec (withBuild L true) .none c nonce aad pt out ia ip
  obtain ⟨st', v', b', g1', g2', g3', g4', g5'⟩ :=
    Crypter.encrypt_spec (withBuild L false) .none c nonce aad pt out ia ip
  rw [h] at g1
  rw [h'] at g1'
  cases g1
  cases g1'
  refine ⟨_, _, h, h', rfl, ?_, ?_⟩
  · by_cases hc : (if nonce.length = 12 ∧ (flat pt).length + 16 ≤ out.length then
        StatusCode.ok else .invalidArgument) = .ok
    · simp only; rw [(g4 hc).2.2.2.2.1, (g4' hc).2.2.2.2.1]
    · simp only; rw [g3 hc, g3' hc]
  · intro hc
    simp only
    rw [(g4 hc).2.2.2.2.2, (g4' hc).2.2.2.2.2]
    rfl

theorem C38_decrypt_builds_agree (L : Lib) (c : Crypter) (nonce : Bytes)
    (aad ct : List Iovec) (out : Iovec) (ia : IntLens aad) (ic : IntLens ct)
    (wa : AllWF aad) (wc : AllWF ct) (wo : out.WF) :
    ∃ r r', c.decrypt (withBuild L true) .none nonce aad ct out = .ok r ∧
      c.decrypt (withBuild L false) .none nonce aad ct out = .ok r' ∧
      r.status = r'.status ∧ r.written = r'.written ∧ (r.status = .ok → r.out = r'.out) := by
  obtain ⟨w, o, h⟩ := decrypt_status (withBuild L true) c nonce aad ct out ia ic wa wc wo
  obtain ⟨w', o', h'⟩ := decrypt_status (withBuild L false) c nonce aad ct out ia ic wa wc wo
  obtain ⟨st, v, b, g1, g2, g3, g4, g5, g6⟩ :=
    Crypter.decrypt_spec (withBuild L true) .none c nonce aad ct out ia ic wc wo
  obtain ⟨st', v', b', g1', g2', g3', g4', g5', g6'⟩ :=
    Crypter.decrypt_spec (withBuild L false) .none c nonce aad ct out ia ic wc wo
  have hds : decStatus (withBuild L true) c nonce (flat aad) (flat ct) out.len =
      decStatus (withBuild L false) c nonce (flat aad) (flat ct) out.len := rfl
  have hop : Spec.aeadOpen (withBuild L true) c.alg c.key nonce (flat aad) (flat ct) =
      Spec.aeadOpen (withBuild L false) c.alg c.key nonce (flat aad) (flat ct) := rfl
  rw [h] at g1
  rw [h'] at g1'
  cases g1
  cases g1'
  rw [hds] at g3 g4
  refine ⟨_, _, h, h', rfl, ?_, ?_⟩
  · by_cases hc : decStatus (withBuild L false) c nonce (flat aad) (flat ct) out.len = .ok
    · obtain ⟨_, _, p, p1, p2, _⟩ := g4 hc
      obtain ⟨_, _, q, q1, q2, _⟩ := g4' hc
      rw [hop, q1] at p1; cases p1
      simp only; omega
    · simp only
      rw [(g3 hc).1, (g3' hc).1]
  · intro hc
    simp only [hds] at hc
    obtain ⟨_, _, p, p1, _, _, p2⟩ := g4 hc
    obtain ⟨_, _, q, q1, _, _, q2⟩ := g4' hc
    rw [hop, q1] at p1; cases p1
    simp only [p2, q2]

/-- Hence what one build encrypts the other decrypts. -/
theorem C38_cross_build_round_trip (L : Lib) (b b' : Bool) (c : Crypter) (nonce : Bytes)
    (aad pt : List Iovec)
    (out : Bytes) (hn : nonce.length = 12) (ia : IntLens aad) (ip : IntLens pt)
    (wa : AllWF aad) (wp : AllWF pt) (room : (flat pt).length + 16 ≤ out.length) :
    ∃ out', c.encrypt (withBuild L b) .none nonce aad pt (.buf out) =
        .ok ⟨.ok, (flat pt).length + 16, .buf out'⟩ ∧
      ∀ (ct : List Iovec) (dst : Iovec), IntLens ct → AllWF ct → dst.WF →
        flat ct = out'.take ((flat pt).length + 16) → (flat pt).length ≤ dst.len →
        ∃ dst', c.decrypt (withBuild L b') .none nonce aad ct dst =
            .ok ⟨.ok, (flat pt).length, dst'⟩ ∧
          dst'.bytes = flat pt ++ dst.bytes.drop (flat pt).length := by
  obtain ⟨out', h1, _, h2⟩ := C35_round_trip (withBuild L b) c nonce aad pt out hn ia ip wa wp room
  obtain ⟨out'', k1, _, k2⟩ :=
    C35_round_trip (withBuild L b') c nonce aad pt out hn ia ip wa wp room
  have hag : Spec.aeadSeal (withBuild L b) c.alg c.key nonce (flat aad) (flat pt) =
    Spec.aeadSeal (withBuild L b') c.alg c.key nonce (flat aad) (flat pt) := rfl
  obtain ⟨st, v, o, g1, g2, g3, g4, g5⟩ :=
    Crypter.encrypt_spec (withBuild L b) .none c nonce aad pt out ia ip
  obtain ⟨st', v', o', g1', g2', g3', g4', g5'⟩ :=
    Crypter.encrypt_spec (withBuild L b') .none c nonce aad pt out ia ip
  rw [h1] at g1; cases g1
  rw [k1] at g1'; cases g1'
  have : out' = out'' := by
    rw [(g4 rfl).2.2.2.2.2, (g4' rfl).2.2.2.2.2, hag]
  subst this
  exact ⟨out', h1, fun ct dst i w wd hf hr => k2 aad ct dst ia i wa w wd rfl hf hr⟩

example : (⟨.chachaPoly, zeros 32⟩ : Crypter).encrypt (withBuild Lib.toy true) .none (zeros 12) []
      [.buf [1, 2]] (.buf (zeros 18)) =
    (⟨.chachaPoly, zeros 32⟩ : Crypter).encrypt (withBuild Lib.toy false) .none (zeros 12) []
      [.buf [1, 2]] (.buf (zeros 18)) := by decide

/-- The builds differ on a malformed ciphertext list (null buffer of non-zero length in the
tag): BoringSSL refuses it, OpenSSL dereferences null. -/
theorem C38_builds_differ_on_null_tag :
    (⟨.chachaPoly, zeros 32⟩ : Crypter).decrypt (withBuild Lib.toy true) .none (zeros 12) []
        [.buf [1], .null 16] (.buf [0]) = .ok ⟨.invalidArgument, 0, .buf [0]⟩ ∧
    (⟨.chachaPoly, zeros 32⟩ : Crypter).decrypt (withBuild Lib.toy false) .none (zeros 12) []
        [.buf [1], .null 16] (.buf [0]) = .error .nullDeref := by decide

/-! ## C58 (AEAD part): key sizes -/

/-- An AES-GCM crypter is created exactly for 16-byte and 32-byte keys (library not
failing), and never for any other size. -/
theorem C58_aes_gcm_key_sizes (key : Bytes) :
    ((∃ c, createAesGcm false key = .ok c) ↔ key.length = 16 ∨ key.length = 32) ∧
    (∀ fail c, createAesGcm fail key = .ok c →
      fail = false ∧ c.key = key ∧
      c.alg = if key.length = 16 then .aes128gcm else .aes256gcm) := by
  unfold createAesGcm kAes128KeySize kAes256KeySize
  constructor
  · constructor
    · rintro ⟨c, h⟩
      split at h
      · omega
      · split at h
        · omega
        · cases h
    · rintro (h | h)
      · exact ⟨_, by rw [if_pos h]; rfl⟩
      · exact ⟨_, by rw [if_neg (by omega), if_pos h]; rfl⟩
  · intro fail c h
    cases fail
    · split at h
      · next h1 => cases h; simp [h1]
      · split at h
        · next h1 => cases h; simp [h1]
        · cases h
    · simp only [if_true] at h
      split at h
      · cases h
      · split at h <;> cases h

theorem C58_chacha_key_size (key : Bytes) :
    ((∃ c, createChachaPoly false key = .ok c) ↔ key.length = 32) ∧
    (∀ fail c, createChachaPoly fail key = .ok c →
      fail = false ∧ c.key = key ∧ c.alg = .chachaPoly) := by
  unfold createChachaPoly kChachaKeySize
  constructor
  · constructor
    · rintro ⟨c, h⟩
      split at h
      · cases h
      · omega
    · intro h
      exact ⟨_, by rw [if_neg (by omega)]; rfl⟩
  · intro fail c h
    cases fail
    · split at h
      · cases h
      · cases h; simp
    · split at h <;> cases h

/-- Why no crypter is created: the status says whether the size of the key or the library is the
reason. -/
theorem C58_creation_status (key : Bytes) (fail : Bool) (st : StatusCode) :
    (createAesGcm fail key = .error st ↔
      (key.length ≠ 16 ∧ key.length ≠ 32 ∧ st = .failedPrecondition) ∨
      ((key.length = 16 ∨ key.length = 32) ∧ fail = true ∧ st = .internal)) ∧
    (createChachaPoly fail key = .error st ↔
      (key.length ≠ 32 ∧ st = .invalidArgument) ∨
      (key.length = 32 ∧ fail = true ∧ st = .internal)) := by
  unfold createAesGcm createChachaPoly kAes128KeySize kAes256KeySize kChachaKeySize
  by_cases h1 : key.length = 16
  · simp [h1]
    cases fail <;> simp [eq_comm]
  · by_cases h2 : key.length = 32
    · simp [h2]
      cases fail <;> simp [eq_comm]
    · simp [h1, h2, eq_comm]

example : (∃ c, createAesGcm false (zeros 32) = .ok c) ∧
    createAesGcm false (zeros 24) = .error .failedPrecondition :=
  ⟨⟨_, rfl⟩, rfl⟩

end S2A.Aead
