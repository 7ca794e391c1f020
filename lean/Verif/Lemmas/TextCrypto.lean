import Verif.Model.TextCrypto
/-
Without the messages the functions of Model/TextCrypto.lean are those of the model.
-/
namespace S2A

variable {α β γ δ : Type}

/-- The result without the texts. -/
abbrev mute (x : Exec (α × β)) : Exec α := x.map Prod.fst

theorem mute_bind (x : Exec γ) (g : γ → Exec (α × β)) :
    mute (x >>= g) = x >>= fun a => mute (g a) := by cases x <;> rfl

theorem mute_pure (a : α) (b : β) : mute (pure (a, b)) = pure a := rfl
theorem mute_ok (a : α) (b : β) : mute (.ok (a, b)) = .ok a := rfl
theorem mute_error (u : UB) : mute (.error u : Exec (α × β)) = .error u := rfl

/-- A bind over a result with texts. -/
theorem bind_mute (x : Exec (α × β)) (y : Exec α) (g : α × β → Exec (γ × δ)) (h : α → Exec γ)
    (hx : mute x = y) (hg : ∀ a b, mute (g (a, b)) = h a) : mute (x >>= g) = y >>= h := by
  subst hx
  cases x with
  | error u => rfl
  | ok p => exact hg p.1 p.2

/-- An error without its text. -/
def quiet : Except (StatusCode × String) α → Except StatusCode α
  | .ok a => .ok a
  | .error e => .error e.1


theorem quiet_bind (x : Except (StatusCode × String) α) (g : α → Except (StatusCode × String) β) :
    quiet (x >>= g) = quiet x >>= fun a => quiet (g a) := by cases x <;> rfl

namespace Aead

theorem setAadT_quiet (f : EvpFault) (q : String) : ∀ (vs : List Iovec) (k : Nat) (c : Ctx),
    (setAadT f q k c vs).map quiet = setAad f k c vs := by
  intro vs
  induction vs with
  | nil => intros; rfl
  | cons v vs ih =>
    intro k c
    unfold setAadT setAad
    by_cases h : v.len = 0
    · rw [if_pos h, if_pos h]; exact ih ..
    rw [if_neg h, if_neg h]
    cases v with
    | null n => rfl
    | buf d =>
      simp only
      by_cases h1 : intBound ≤ d.length
      · rw [if_pos h1, if_pos h1]; rfl
      rw [if_neg h1, if_neg h1]
      by_cases h2 : f.aad k = true
      · rw [if_pos h2, if_pos h2]; rfl
      rw [if_neg h2, if_neg h2]
      exact ih ..

/-- The result of a loop without the message. -/
def quiet2 (x : Bytes × Except (StatusCode × String) α) : Bytes × Except StatusCode α :=
  (x.1, quiet x.2)

theorem map_bind (g : β → γ) (x : Exec α) (h : α → Exec β) :
    (x >>= h).map g = x >>= fun a => (h a).map g := by cases x <;> rfl

theorem encLoopT_quiet (L : Lib) (f : EvpFault) (q : String) :
    ∀ (vs : List Iovec) (k : Nat) (c : Ctx) (out : Bytes) (off rem : Nat),
    (encLoopT L f q k c out off rem vs).map quiet2 = encLoop L f k c out off rem vs := by
  intro vs
  induction vs with
  | nil => intros; rfl
  | cons v vs ih =>
    intro k c out off rem
    unfold encLoopT encLoop
    by_cases h : v.len = 0
    · rw [if_pos h, if_pos h]; exact ih ..
    rw [if_neg h, if_neg h]
    cases v with
    | null n => rfl
    | buf d =>
      simp only
      by_cases h0 : rem < d.length
      · rw [if_pos h0, if_pos h0]; rfl
      rw [if_neg h0, if_neg h0]
      by_cases h1 : intBound ≤ d.length
      · rw [if_pos h1, if_pos h1]; rfl
      rw [if_neg h1, if_neg h1]
      by_cases h2 : f.update k = true
      · rw [if_pos h2, if_pos h2]; rfl
      rw [if_neg h2, if_neg h2]
      simp only [map_bind, ih]

theorem evpEncryptT_mute (L : Lib) (f : EvpFault) (q : String) (alg : Alg) (key nonce : Bytes)
    (aad plaintext : List Iovec) (out : Iovec) :
    mute (evpEncryptT L f q alg key nonce aad plaintext out) =
      evpEncrypt L f alg key nonce aad plaintext out := by
  unfold evpEncryptT evpEncrypt
  cases out with
  | null n => rfl
  | buf ob =>
    simp only
    by_cases h1 : nonce.length ≠ kNonceSize
    · rw [if_pos h1, if_pos h1]; rfl
    rw [if_neg h1, if_neg h1]
    by_cases h2 : f.init = true
    · rw [if_pos h2, if_pos h2]; rfl
    rw [if_neg h2, if_neg h2, ← setAadT_quiet f q]
    cases setAadT f q 0 ⟨alg, key, nonce, [], []⟩ aad with
    | error u => rfl
    | ok x =>
      cases x with
      | error e => rfl
      | ok c =>
        show mute (encLoopT L f q 0 c ob 0 ob.length plaintext >>= _) =
          encLoop L f 0 c ob 0 ob.length plaintext >>= _
        rw [← encLoopT_quiet L f q]
        cases encLoopT L f q 0 c ob 0 ob.length plaintext with
        | error u => rfl
        | ok y =>
          obtain ⟨ob', y⟩ := y
          cases y with
          | error e => rfl
          | ok z =>
            obtain ⟨c', off, rem⟩ := z
            show mute (if f.final = true then _ else _) = if f.final = true then _ else _
            by_cases h3 : f.final = true
            · rw [if_pos h3, if_pos h3]; rfl
            rw [if_neg h3, if_neg h3]
            by_cases h4 : rem < kTagSize
            · rw [if_pos h4, if_pos h4]; rfl
            rw [if_neg h4, if_neg h4]
            by_cases h5 : f.tag = true
            · rw [if_pos h5, if_pos h5]; rfl
            rw [if_neg h5, if_neg h5]
            simp only [mute_bind]
            rfl

theorem decLoopT_quiet (L : Lib) (f : EvpFault) (q : String) :
    ∀ (vs : List Iovec) (k : Nat) (c : Ctx) (out : Bytes) (off rem total : Nat) (cur : Bytes),
    (decLoopT L f q k c out off rem total cur vs).map quiet2 =
      decLoop L f k c out off rem total cur vs := by
  intro vs
  induction vs with
  | nil => intros; rfl
  | cons v vs ih =>
    intro k c out off rem total cur
    unfold decLoopT decLoop
    by_cases h0 : total ≤ kTagSize
    · rw [if_pos h0, if_pos h0]; rfl
    rw [if_neg h0, if_neg h0]
    by_cases h : v.len = 0
    · rw [if_pos h, if_pos h]; exact ih ..
    rw [if_neg h, if_neg h]
    cases v with
    | null n => rfl
    | buf d =>
      simp only
      generalize (if d.length > total - kTagSize then total - kTagSize else d.length) = btw
      by_cases h0 : rem < btw
      · rw [if_pos h0, if_pos h0]; rfl
      rw [if_neg h0, if_neg h0]
      by_cases h1 : intBound ≤ btw
      · rw [if_pos h1, if_pos h1]; rfl
      rw [if_neg h1, if_neg h1]
      by_cases h2 : f.update k = true
      · rw [if_pos h2, if_pos h2]; rfl
      rw [if_neg h2, if_neg h2]
      simp only [map_bind, ih]

theorem evpDecryptT_mute (L : Lib) (f : EvpFault) (q : String) (alg : Alg) (key nonce : Bytes)
    (aad ciphertextAndTag : List Iovec) (out : Iovec) :
    mute (evpDecryptT L f q alg key nonce aad ciphertextAndTag out) =
      evpDecrypt L f alg key nonce aad ciphertextAndTag out := by
  unfold evpDecryptT evpDecrypt
  by_cases h0 : ¬ out.WF
  · rw [if_pos h0, if_pos h0]; rfl
  rw [if_neg h0, if_neg h0]
  simp only
  by_cases h : totalLen ciphertextAndTag < kTagSize
  · rw [if_pos h, if_pos h]; rfl
  rw [if_neg h, if_neg h]
  by_cases h1 : nonce.length ≠ kNonceSize
  · rw [if_pos h1, if_pos h1]; rfl
  rw [if_neg h1, if_neg h1]
  by_cases h2 : f.init = true
  · rw [if_pos h2, if_pos h2]; rfl
  rw [if_neg h2, if_neg h2, ← setAadT_quiet f q]
  cases setAadT f q 0 ⟨alg, key, nonce, [], []⟩ aad with
  | error u => rfl
  | ok x =>
    cases x with
    | error e => rfl
    | ok c =>
      show mute (decLoopT L f q 0 c out.bytes 0 out.bytes.length (totalLen ciphertextAndTag) []
          ciphertextAndTag >>= _) =
        decLoop L f 0 c out.bytes 0 out.bytes.length (totalLen ciphertextAndTag) []
          ciphertextAndTag >>= _
      rw [← decLoopT_quiet L f q]
      cases decLoopT L f q 0 c out.bytes 0 out.bytes.length (totalLen ciphertextAndTag) []
          ciphertextAndTag with
      | error u => rfl
      | ok y =>
        obtain ⟨ob', y⟩ := y
        cases y with
        | error e => rfl
        | ok s =>
          show mute (if s.total > kTagSize then _ else _) = if s.total > kTagSize then _ else _
          by_cases h3 : s.total > kTagSize
          · rw [if_pos h3, if_pos h3]; rfl
          rw [if_neg h3, if_neg h3, mute_bind]
          congr 1
          funext tag
          rw [mute_bind]
          congr 1
          funext tag
          by_cases h4 : tag.length ≠ kTagSize
          · rw [if_pos h4, if_pos h4]; rfl
          rw [if_neg h4, if_neg h4]
          by_cases h5 : f.tag = true
          · rw [if_pos h5, if_pos h5]; rfl
          rw [if_neg h5, if_neg h5]
          by_cases h6 : (f.final || decide (s.ctx.tag L ≠ tag)) = true
          · rw [if_pos h6, if_pos h6]; rfl
          rw [if_neg h6, if_neg h6, mute_bind]
          rfl

theorem boringEncryptT_mute (L : Lib) (f : EvpFault) (q : String) (alg : Alg) (key nonce : Bytes)
    (aad plaintext : List Iovec) (out : Iovec) :
    mute (boringEncryptT L f q alg key nonce aad plaintext out) =
      boringEncrypt L f alg key nonce aad plaintext out := by
  unfold boringEncryptT boringEncrypt
  cases out with
  | null n => rfl
  | buf ob =>
    simp only
    by_cases h1 : nonce.length ≠ kNonceSize
    · rw [if_pos h1, if_pos h1]; rfl
    rw [if_neg h1, if_neg h1]
    by_cases h2 : hasBadNull plaintext = true
    · rw [if_pos h2, if_pos h2]; rfl
    rw [if_neg h2, if_neg h2]
    by_cases h3 : ob.length < kTagSize + totalLen plaintext
    · rw [if_pos h3, if_pos h3]; rfl
    rw [if_neg h3, if_neg h3]
    by_cases h4 : hasBadNull aad = true
    · rw [if_pos h4, if_pos h4]; rfl
    rw [if_neg h4, if_neg h4]
    by_cases h5 : f.oneShot = true
    · rw [if_pos h5, if_pos h5]; rfl
    rw [if_neg h5, if_neg h5]
    simp only [mute_bind]
    rfl

theorem boringDecryptT_mute (L : Lib) (f : EvpFault) (q : String) (alg : Alg) (key nonce : Bytes)
    (aad ciphertextAndTag : List Iovec) (out : Iovec) :
    mute (boringDecryptT L f q alg key nonce aad ciphertextAndTag out) =
      boringDecrypt L f alg key nonce aad ciphertextAndTag out := by
  unfold boringDecryptT boringDecrypt
  by_cases h0 : ¬ out.WF
  · rw [if_pos h0, if_pos h0]; rfl
  rw [if_neg h0, if_neg h0]
  simp only
  by_cases h1 : nonce.length ≠ kNonceSize
  · rw [if_pos h1, if_pos h1]; rfl
  rw [if_neg h1, if_neg h1]
  by_cases h2 : hasBadNull ciphertextAndTag = true
  · rw [if_pos h2, if_pos h2]; rfl
  rw [if_neg h2, if_neg h2]
  by_cases h : totalLen ciphertextAndTag < kTagSize
  · rw [if_pos h, if_pos h]; rfl
  rw [if_neg h, if_neg h]
  by_cases h3 : out.bytes.length < totalLen ciphertextAndTag - kTagSize
  · rw [if_pos h3, if_pos h3]; rfl
  rw [if_neg h3, if_neg h3]
  by_cases h4 : hasBadNull aad = true
  · rw [if_pos h4, if_pos h4]; rfl
  rw [if_neg h4, if_neg h4]
  generalize (flat ciphertextAndTag).take ((flat ciphertextAndTag).length - kTagSize) = ct
  generalize (flat ciphertextAndTag).drop ((flat ciphertextAndTag).length - kTagSize) = tag
  by_cases h5 : (f.oneShot || decide (L.mac alg key nonce (flat aad) ct ≠ tag)) = true
  · rw [if_pos h5, if_pos h5]; rfl
  rw [if_neg h5, if_neg h5]
  simp only [mute_bind]
  rfl

theorem encryptT_mute (L : Lib) (f : EvpFault) (q : String) (c : Crypter) (nonce : Bytes)
    (aad plaintext : List Iovec) (out : Iovec) :
    mute (c.encryptT L f q nonce aad plaintext out) = c.encrypt L f nonce aad plaintext out := by
  unfold Crypter.encryptT Crypter.encrypt
  split
  · exact boringEncryptT_mute ..
  · exact evpEncryptT_mute ..

theorem decryptT_mute (L : Lib) (f : EvpFault) (q : String) (c : Crypter) (nonce : Bytes)
    (aad ciphertextAndTag : List Iovec) (out : Iovec) :
    mute (c.decryptT L f q nonce aad ciphertextAndTag out) =
      c.decrypt L f nonce aad ciphertextAndTag out := by
  unfold Crypter.decryptT Crypter.decrypt
  split
  · exact boringDecryptT_mute ..
  · exact evpDecryptT_mute ..

theorem createAesGcmT_quiet (fail : Bool) (q : String) (key : Bytes) :
    quiet (createAesGcmT fail q key) = createAesGcm fail key := by
  unfold createAesGcmT createAesGcm
  split
  · split <;> rfl
  · split
    · split <;> rfl
    · rfl

theorem createChachaPolyT_quiet (fail : Bool) (q : String) (key : Bytes) :
    quiet (createChachaPolyT fail q key) = createChachaPoly fail key := by
  unfold createChachaPolyT createChachaPoly
  split
  · rfl
  · split <;> rfl

end Aead

namespace Hkdf

theorem loopT_mute (L : Lib) (h : HashFn) (f : HkdfFault) (late : Bool) (prk info : Bytes) :
    ∀ (m i : Nat) (buffer : Bytes) (done : Nat) (out : Bytes),
    mute (loopT L h f late prk info m i buffer done out) =
      loop L h f prk info m i buffer done out := by
  intro m
  induction m with
  | zero => intros; rfl
  | succ m ih =>
    intro i buffer done out
    unfold loopT loop
    by_cases h1 : f.step i = true
    · rw [if_pos h1, if_pos h1]; rfl
    rw [if_neg h1, if_neg h1]
    simp only [mute_bind, ih]

theorem deriveSecretT_mute (L : Lib) (f : HkdfFault) (late : Bool) (h : HashFn)
    (prk info out : Bytes) :
    mute (deriveSecretT L f late h prk info out) = deriveSecret L f h prk info out := by
  have key : ∀ (h : HashFn) (n : Nat), mute
      (if prk.length < h.digestSize then
        .ok ((.invalidArgument, out),
          "The size of |prk| must be at least the digest size of |hash_function|.")
      else if n > 255 then .ok ((.internal, out), "Extracting too many bytes.")
      else if f.ctxNew then .ok ((.internal, out), "Could not generate new HMAC context.")
      else derivationT L h f late n prk info out) =
      if prk.length < h.digestSize then .ok (.invalidArgument, out)
      else if n > 255 then .ok (.internal, out)
      else if f.ctxNew then .ok (.internal, out)
      else derivation L h f n prk info out := by
    intro h n
    by_cases h1 : prk.length < h.digestSize
    · rw [if_pos h1, if_pos h1]; rfl
    rw [if_neg h1, if_neg h1]
    by_cases h2 : n > 255
    · rw [if_pos h2, if_pos h2]; rfl
    rw [if_neg h2, if_neg h2]
    by_cases h3 : f.ctxNew = true
    · rw [if_pos h3, if_pos h3]; rfl
    rw [if_neg h3, if_neg h3]
    unfold derivationT derivation
    by_cases h4 : f.init = true
    · rw [if_pos h4, if_pos h4]; rfl
    rw [if_neg h4, if_neg h4]
    exact loopT_mute ..
  cases h with
  | other => rfl
  | _ => exact key _ _

end Hkdf

theorem deriveLabelT_mute (L : Lib) (f : HkdfFault) (late : Bool) (cs : Ciphersuite)
    (suffix secret output : Bytes) :
    mute (deriveLabelT L f late cs suffix secret output) =
      deriveLabel L f cs suffix secret output := by
  unfold deriveLabelT deriveLabel
  cases ciphersuiteToHash cs with
  | error e => rfl
  | ok h => exact Hkdf.deriveSecretT_mute ..

namespace HalfConn

theorem createAeadT_quiet (fail : Bool) (q : String) (cs : Ciphersuite) (key : Bytes) :
    quiet (createAeadT fail q cs key) = createAead fail cs key := by
  cases cs with
  | aes128GcmSha256 => exact Aead.createAesGcmT_quiet ..
  | aes256GcmSha384 => exact Aead.createAesGcmT_quiet ..
  | chacha20Poly1305Sha256 => exact Aead.createChachaPolyT_quiet ..
  | other n => rfl

theorem createT_quiet (L : Lib) (f : KeyFault) (x : LibText) (cs : Ciphersuite)
    (sequence : UInt64) (secret : Bytes) :
    (createT L f x cs sequence secret).map quiet = create L f cs sequence secret := by
  unfold createT create
  cases sizes cs with
  | none => rfl
  | some y =>
    obtain ⟨k, n, m⟩ := y
    simp only
    by_cases h : secret.length ≠ m
    · rw [if_pos h, if_pos h]; rfl
    rw [if_neg h, if_neg h]
    unfold deriveKey deriveNonce
    rw [← deriveLabelT_mute L f.key x.late, ← deriveLabelT_mute L f.nonce x.late]
    cases deriveLabelT L f.key x.late cs keySuffix secret (zeros k) with
    | error u => rfl
    | ok y =>
      obtain ⟨⟨st, key⟩, m⟩ := y
      cases st with
      | ok =>
        cases deriveLabelT L f.nonce x.late cs ivSuffix secret (zeros n) with
        | error u => rfl
        | ok z =>
          obtain ⟨⟨st, nonce⟩, m⟩ := z
          cases st with
          | ok =>
            simp only [← createAeadT_quiet f.create x.queue]
            show Except.map quiet (match createAeadT f.create x.queue cs key with
              | .error e => _
              | .ok a => _) = match quiet (createAeadT f.create x.queue cs key) with
              | .error e => _
              | .ok a => _
            cases createAeadT f.create x.queue cs key <;> rfl
          | _ => rfl
      | _ => rfl

theorem encryptT_mute (L : Lib) (f : EvpFault) (q : String) (hc : HalfConn)
    (aad plaintext : List Iovec) (out : Iovec) :
    mute (hc.encryptT L f q aad plaintext out) = hc.encrypt L f aad plaintext out := by
  unfold encryptT encrypt
  by_cases h : (hc.alwaysFail || hc.overflowed) = true
  · rw [if_pos h, if_pos h]; rfl
  rw [if_neg h, if_neg h, mute_bind]
  congr 1
  funext x
  obtain ⟨n, hc'⟩ := x
  exact bind_mute _ _ _ _ (Aead.encryptT_mute ..) (fun _ _ => rfl)

theorem decryptT_mute (L : Lib) (f : EvpFault) (q : String) (hc : HalfConn)
    (aad ciphertextAndTag : List Iovec) (out : Iovec) :
    mute (hc.decryptT L f q aad ciphertextAndTag out) =
      hc.decrypt L f aad ciphertextAndTag out := by
  unfold decryptT decrypt
  by_cases h : (hc.alwaysFail || hc.overflowed) = true
  · rw [if_pos h, if_pos h]; rfl
  rw [if_neg h, if_neg h, mute_bind]
  congr 1
  funext x
  obtain ⟨n, hc'⟩ := x
  exact bind_mute _ _ _ _ (Aead.decryptT_mute ..) (fun _ _ => rfl)

end HalfConn
end S2A
