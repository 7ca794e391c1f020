import Verif.Lemmas.ErrQueue
import Verif.Lemmas.Text
import Verif.Lemmas.HalfConn
import Verif.Lemmas.Record
/-
The error queue in key derivation, in the half connection and in the record protocol.
-/
namespace S2A
open Spec (Quotes AnyHmacFails DerivationFails Kept Drained KeptKeys DrainedKeys)

variable {α β γ : Type}

theorem Mute.bindMute {N : ErrQueue → α → Prop} {N' : ErrQueue → γ × β → Prop}
    {xQ : Exec ((γ × β) × ErrQueue)} {xT : Exec (γ × β)} {x : Exec γ}
    {gQ : (γ × β) × ErrQueue → Exec (α × ErrQueue)} {gT : γ → Exec α} (hx : Mute N' xQ xT)
    (hm : mute xT = x) (h : ∀ a m r, x = .ok a → N' r (a, m) → Mute N (gQ ((a, m), r)) (gT a)) :
    Mute N (xQ >>= gQ) (x >>= gT) := by
  obtain ⟨r, rfl, hn⟩ := hx
  subst hm
  cases xT with
  | error u => exact .ub
  | ok a => exact h a.1 a.2 r rfl (hn a rfl)

namespace Hkdf

/-- Keys that can be derived. -/
def Small (h : HashFn) (out : Bytes) : Prop := (out.length + h.digestSize - 1) / h.digestSize ≤ 255

/-- What can be derived. -/
def Fits (h : HashFn) (prk out : Bytes) : Prop :=
  h ≠ .other ∧ h.digestSize ≤ prk.length ∧ Small h out

/-- What is left of a key derivation. -/
def Left (fits small : Prop) (f : HkdfFault) (es q r : ErrQueue) (st : StatusCode) (m : String) :
    Prop :=
  r = q ∧ (fits → st = .ok) ∧ (small → st ≠ .internal) ∨
  st = .internal ∧ AnyHmacFails f ∧ m ∈ Spec.hmacMessages ∧ r = q ++ es

theorem loopQ_ends (L : Lib) (h : HashFn) (f : HkdfFault) (late : Bool) (es q : ErrQueue)
    (prk info : Bytes) (m i : Nat) (buffer : Bytes) (done : Nat) (out : Bytes) :
    Mute (fun r a => Left True True f es q r a.1.1 a.2) (loopQ L h f late es q prk info m i buffer done out)
      (loopT L h f late prk info m i buffer done out) := by
  induction m generalizing i buffer done out with
  | zero => exact .ok (.inl ⟨rfl, fun _ => rfl, nofun⟩)
  | succ m ih =>
    unfold loopQ loopT
    by_cases h1 : f.step i = true
    · simp only [if_pos h1]
      exact .ok (.inr ⟨rfl, .inr (.inr ⟨i, h1⟩), by simp only; split <;> simp [Spec.hmacMessages],
        rfl⟩)
    simp only [if_neg h1]
    exact .step fun _ _ => .step fun _ _ => ih ..

theorem deriveSecretQ_ends (L : Lib) (f : HkdfFault) (late : Bool) (es q : ErrQueue) (h : HashFn)
    (prk info out : Bytes) :
    Mute (fun r a => Left (Fits h prk out) (Small h out) f es q r a.1.1 a.2) (deriveSecretQ L f late es q h prk info out)
      (deriveSecretT L f late h prk info out) := by
  have key : ∀ h' : HashFn, Mute (fun r (a : (StatusCode × Bytes) × String) => Left (Fits h' prk out) (Small h' out) f es q r a.1.1 a.2)
      (if prk.length < h'.digestSize then
        .ok (((.invalidArgument, out),
          "The size of |prk| must be at least the digest size of |hash_function|."), q)
      else
        if (out.length + h'.digestSize - 1) / h'.digestSize > 255 then
          .ok (((.internal, out), "Extracting too many bytes."), q)
        else if f.ctxNew then
          .ok (((.internal, out), "Could not generate new HMAC context."), q ++ es)
        else derivationQ L h' f late es q ((out.length + h'.digestSize - 1) / h'.digestSize)
          prk info out)
      (if prk.length < h'.digestSize then
        .ok ((.invalidArgument, out),
          "The size of |prk| must be at least the digest size of |hash_function|.")
      else
        if (out.length + h'.digestSize - 1) / h'.digestSize > 255 then
          .ok ((.internal, out), "Extracting too many bytes.")
        else if f.ctxNew then
          .ok ((.internal, out), "Could not generate new HMAC context.")
        else derivationT L h' f late ((out.length + h'.digestSize - 1) / h'.digestSize)
          prk info out) := by
    intro h'
    by_cases h1 : prk.length < h'.digestSize
    · simp only [if_pos h1]
      exact .ok (.inl ⟨rfl, fun h => by have := h.2.1; omega, nofun⟩)
    simp only [if_neg h1]
    by_cases h2 : (out.length + h'.digestSize - 1) / h'.digestSize > 255
    · simp only [if_pos h2]
      exact .ok (.inl ⟨rfl, fun h => absurd h.2.2 (Nat.not_le.2 h2),
        fun h => absurd h (Nat.not_le.2 h2)⟩)
    simp only [if_neg h2]
    by_cases h3 : f.ctxNew = true
    · simp only [if_pos h3]; exact .ok (.inr ⟨rfl, .inl h3, by simp [Spec.hmacMessages], rfl⟩)
    simp only [if_neg h3]
    unfold derivationQ derivationT
    by_cases h4 : f.init = true
    · simp only [if_pos h4]; exact .ok (.inr ⟨rfl, .inr (.inl h4), by simp [Spec.hmacMessages], rfl⟩)
    simp only [if_neg h4]
    obtain ⟨r, e, h⟩ := loopQ_ends L h' f late es q prk info
      ((out.length + h'.digestSize - 1) / h'.digestSize) 0 [] 0 out
    refine ⟨r, e, fun a ha => ?_⟩
    rcases h a ha with ⟨h1, h2, h3⟩ | h
    · exact .inl ⟨h1, fun _ => h2 trivial, fun _ => h3 trivial⟩
    · exact .inr h
  cases h with
  | other => exact .ok (.inl ⟨rfl, fun h => absurd rfl h.1, nofun⟩)
  | sha256 => exact key .sha256
  | sha384 => exact key .sha384

end Hkdf

/-- The keys of a suite can be derived. -/
def LabelFits (cs : Ciphersuite) (secret out : Bytes) : Prop :=
  ∃ h, ciphersuiteToHash cs = .ok h ∧ Hkdf.Fits h secret out

/-- The length of the keys of a suite is not the reason of a failure. -/
def LabelSmall (cs : Ciphersuite) (out : Bytes) : Prop :=
  ∃ h, ciphersuiteToHash cs = .ok h ∧ Hkdf.Small h out

theorem deriveLabelQ_ends (L : Lib) (f : HkdfFault) (late : Bool) (es q : ErrQueue)
    (cs : Ciphersuite) (suffix secret output : Bytes) :
    Mute (fun r a => Hkdf.Left (LabelFits cs secret output) (LabelSmall cs output) f es q r a.1.1
        a.2)
      (deriveLabelQ L f late es q cs suffix secret output)
      (deriveLabelT L f late cs suffix secret output) := by
  unfold deriveLabelQ deriveLabelT LabelFits LabelSmall
  cases ciphersuiteToHash cs with
  | error e => exact .ok (.inl ⟨rfl, by rintro ⟨_, ⟨⟩, _⟩, by rintro ⟨_, ⟨⟩, _⟩⟩)
  | ok h =>
    obtain ⟨r, e, hl⟩ := Hkdf.deriveSecretQ_ends L f late es q h secret
      (labelLen output.length ++ suffix) output
    refine ⟨r, e, fun a ha => ?_⟩
    rcases hl a ha with ⟨h1, h2, h3⟩ | h
    · refine .inl ⟨h1, ?_, ?_⟩
      · rintro ⟨_, ⟨⟩, h⟩; exact h2 h
      · rintro ⟨_, ⟨⟩, h⟩; exact h3 h
    · exact .inr h

theorem labelFits {cs : Ciphersuite} {s : Spec.Suite} (h : Spec.suite cs = some s)
    {secret out : Bytes} (hl : secret.length = s.hash.digestSize)
    (ho : out.length ≤ s.hash.digestSize) : LabelFits cs secret out := by
  obtain ⟨c1, c2, _, _, c5, _, _, c8⟩ := ciphersuiteToHash_suite cs s h
  refine ⟨_, c1, c2, Nat.le_of_eq hl.symm, Nat.le_trans (Nat.div_le_div_right ?_) c8⟩
  omega

theorem LabelFits.small {cs : Ciphersuite} {secret out : Bytes} (h : LabelFits cs secret out) :
    LabelSmall cs out := h.elim fun _ h => ⟨_, h.1, h.2.2.2⟩

namespace HalfConn

/-- What is left of the construction of a cipher: nothing if it fails, and then it is in the
message. -/
def LeftAead (fail : Bool) (es q : ErrQueue) (r : ErrQueue) (x : Except (StatusCode × String) α) :
    Prop :=
  fail = true ∧ r = [] ∧ ∃ m, x = .error (.internal, m) ∧ Quotes m (q ++ es)

theorem createAeadQ_eq (fail : Bool) (es q : ErrQueue) (cs : Ciphersuite) (key : Bytes) :
    ∃ r, createAeadQ fail es q cs key = (createAeadT fail (String.join (q ++ es)) cs key, r) ∧
      (r = q ∧ (∀ t, createAeadT fail t cs key =
          createAeadT fail (String.join (q ++ es)) cs key) ∧
        (∀ m, createAeadT fail (String.join (q ++ es)) cs key ≠ .error (.internal, m)) ∨
      LeftAead fail es q r (createAeadT fail (String.join (q ++ es)) cs key)) := by
  have g : ∃ r, Aead.createAesGcmQ fail es q key =
      (Aead.createAesGcmT fail (String.join (q ++ es)) key, r) ∧
      (r = q ∧ (∀ t, Aead.createAesGcmT fail t key =
          Aead.createAesGcmT fail (String.join (q ++ es)) key) ∧
        (∀ m, Aead.createAesGcmT fail (String.join (q ++ es)) key ≠ .error (.internal, m)) ∨
      LeftAead fail es q r (Aead.createAesGcmT fail (String.join (q ++ es)) key)) := by
    unfold Aead.createAesGcmQ Aead.createAesGcmT
    by_cases h1 : key.length = Aead.kAes128KeySize
    · simp only [if_pos h1]
      cases fail
      · exact ⟨_, rfl, .inl ⟨rfl, fun _ => rfl, nofun⟩⟩
      · exact ⟨_, rfl, .inr ⟨rfl, rfl, _, rfl, _, rfl⟩⟩
    simp only [if_neg h1]
    by_cases h2 : key.length = Aead.kAes256KeySize
    · simp only [if_pos h2]
      cases fail
      · exact ⟨_, rfl, .inl ⟨rfl, fun _ => rfl, nofun⟩⟩
      · exact ⟨_, rfl, .inr ⟨rfl, rfl, _, rfl, _, rfl⟩⟩
    simp only [if_neg h2]
    exact ⟨_, rfl, .inl ⟨rfl, fun _ => trivial, nofun⟩⟩
  cases cs with
  | aes128GcmSha256 => exact g
  | aes256GcmSha384 => exact g
  | chacha20Poly1305Sha256 =>
    show ∃ r, Aead.createChachaPolyQ fail es q key =
      (Aead.createChachaPolyT fail (String.join (q ++ es)) key, r) ∧
      (r = q ∧ (∀ t, Aead.createChachaPolyT fail t key =
          Aead.createChachaPolyT fail (String.join (q ++ es)) key) ∧
        (∀ m, Aead.createChachaPolyT fail (String.join (q ++ es)) key ≠ .error (.internal, m)) ∨
      LeftAead fail es q r (Aead.createChachaPolyT fail (String.join (q ++ es)) key))
    unfold Aead.createChachaPolyQ Aead.createChachaPolyT
    by_cases h1 : key.length ≠ Aead.kChachaKeySize
    · simp only [if_pos h1]; exact ⟨_, rfl, .inl ⟨rfl, fun _ => trivial, nofun⟩⟩
    simp only [if_neg h1]
    cases fail
    · exact ⟨_, rfl, .inl ⟨rfl, fun _ => rfl, nofun⟩⟩
    · exact ⟨_, rfl, .inr ⟨rfl, rfl, _, rfl, _, rfl⟩⟩
  | other n => exact ⟨_, rfl, .inl ⟨rfl, fun _ => rfl, nofun⟩⟩

theorem sizes_some {cs : Ciphersuite} {k n l : Nat} (h : sizes cs = some (k, n, l)) :
    ∃ s, Spec.suite cs = some s ∧ k = s.keyLen ∧ n = 12 ∧ l = s.hash.digestSize := by
  cases hs : Spec.suite cs with
  | none => rw [suite_none_sizes cs hs] at h; cases h
  | some s => rw [sizes_suite cs s hs] at h; cases h; exact ⟨s, rfl, rfl, rfl, rfl⟩

theorem createQ_ends (L : Lib) (f : KeyFault) (late : Bool) (es q : ErrQueue) (cs : Ciphersuite)
    (sequence : UInt64) (secret : Bytes) :
    QueueEnds (String.join (q ++ es)) (KeptKeys f es q) (DrainedKeys f es q)
      (createQ L f late es q cs sequence secret)
      (fun t => createT L f ⟨t, late⟩ cs sequence secret) := by
  unfold createQ createT
  cases hk : sizes cs with
  | none => exact .ok (.same _ nofun)
  | some k =>
    obtain ⟨keySize, nonceSize, secretSize⟩ := k
    obtain ⟨s, hs, rfl, rfl, rfl⟩ := sizes_some hk
    obtain ⟨c1, c2, c3, c4, c5, c6, c7, c8⟩ := ciphersuiteToHash_suite cs s hs
    simp only
    by_cases h1 : secret.length ≠ s.hash.digestSize
    · simp only [if_pos h1]; exact .ok (.same _ nofun)
    simp only [if_neg h1]
    have hsec : secret.length = s.hash.digestSize := Classical.not_not.1 h1
    refine .bind (fun _ : String => ()) (M' := fun _ _ => False)
      (.mute (deriveLabelQ_ends ..)) ?_ (fun _ _ h => h.elim)
    rintro ⟨⟨st, key⟩, m⟩ r hl
    have hfit := labelFits hs hsec (out := zeros s.keyLen) (by simp [zeros]; exact c3)
    simp only at hl ⊢
    by_cases h2 : st ≠ .ok
    · simp only [if_pos h2]
      rcases hl with ⟨_, h, _⟩ | ⟨rfl, h, hm, rfl⟩
      · exact absurd (h hfit) h2
      · exact .ok (.derivation _ (.inl h) hm)
    simp only [if_neg h2]
    obtain rfl : r = q := by
      rcases hl with ⟨h, _⟩ | ⟨h, _⟩
      · exact h
      · exact absurd (show st ≠ .ok by rw [h]; nofun) h2
    refine .bind (fun _ : String => ()) (M' := fun _ _ => False)
      (.mute (deriveLabelQ_ends ..)) ?_ (fun _ _ h => h.elim)
    rintro ⟨⟨st, nonce⟩, m⟩ q hl
    have hfit := labelFits hs hsec (out := zeros 12) (by simp [zeros]; exact c4)
    simp only at hl ⊢
    by_cases h3 : st ≠ .ok
    · simp only [if_pos h3]
      rcases hl with ⟨_, h, _⟩ | ⟨rfl, h, hm, rfl⟩
      · exact absurd (h hfit) h3
      · exact .ok (.derivation _ (.inr h) hm)
    simp only [if_neg h3]
    obtain rfl : q = r := by
      rcases hl with ⟨h, _⟩ | ⟨h, _⟩
      · exact h
      · exact absurd (show st ≠ .ok by rw [h]; nofun) h3
    obtain ⟨r, e, hr⟩ := createAeadQ_eq f.create es q cs key
    rw [e]
    rcases hr with ⟨rfl, ht, hi⟩ | ⟨hf, rfl, m, hx, hq⟩
    · simp only [ht]
      generalize createAeadT f.create (String.join (r ++ es)) cs key = x at hi ⊢
      cases x with
      | error e => exact .ok (.same _ (by rintro m ⟨⟩; exact hi m rfl))
      | ok a => exact .ok (.same _ nofun)
    · refine ⟨[], by simp only [hx]; rfl, ?_⟩
      simp only [hx]
      rintro a ⟨⟩
      exact .inr ⟨hf, rfl, m, rfl, hq⟩

/-- What is left of a key update. -/
inductive LeftUpdate (good : Prop) (f : KeyFault) (es q : ErrQueue) :
    ErrQueue → HalfConn × StatusCode → Prop
  | same (x) : (good → x.2 = .ok) → LeftUpdate good f es q q x
  | derivation (h) : DerivationFails f → LeftUpdate good f es q (q ++ es) (h, .internal)
  | cipher (h) : f.create = true → LeftUpdate good f es q [] (h, .internal)

theorem advanceSecretQ_ends (L : Lib) (f : HkdfFault) (es q : ErrQueue)
    (cs : Ciphersuite) (secret : Bytes) :
    ∃ xT, mute xT = advanceSecret L f cs secret ∧
      Mute (fun r a => Hkdf.Left (LabelFits cs secret secret) (LabelSmall cs secret) f es q r a.1.1
        a.2) (advanceSecretQ L f es q cs secret) xT :=
  ⟨deriveLabelT L f false cs updSuffix secret secret, deriveLabelT_mute ..,
    deriveLabelQ_ends L f false es q cs updSuffix secret secret⟩

theorem updateKeyQ_ends (L : Lib) (f : KeyFault) (es q : ErrQueue) (hc : HalfConn) :
    Mute (LeftUpdate (∃ s, Good s hc) f es q) (updateKeyQ L f es q hc) (updateKey L f hc) := by
  unfold updateKeyQ updateKey
  obtain ⟨xT, hm, he⟩ := advanceSecretQ_ends L f.advance es q hc.cs hc.secret
  refine .bindMute he hm ?_
  rintro ⟨st, secret⟩ m r hx hl
  simp only at hl ⊢
  by_cases h1 : st ≠ .ok
  · simp only [if_pos h1]
    rcases hl with ⟨rfl, h, _⟩ | ⟨rfl, h, hm, rfl⟩
    · refine .ok (.same _ ?_)
      rintro ⟨s, hg⟩
      exact h (labelFits hg.suite hg.secret (Nat.le_of_eq hg.secret))
    · exact .ok (.derivation _ (.inl h))
  have hsec : ∀ s, Good s hc → secret.length = s.hash.digestSize := by
    intro s hg
    obtain ⟨st', sec, a1, a2, _⟩ :=
      advanceSecret_spec L f.advance hc.cs s hc.secret hg.suite hg.secret
    rw [hx] at a1
    cases a1
    rw [a2, hg.secret]
  simp only [if_neg h1]
  obtain rfl : r = q := by
    rcases hl with ⟨h, _⟩ | ⟨h, _⟩
    · exact h
    · exact absurd (show st ≠ .ok by rw [h]; nofun) h1
  refine .bindMute (deriveLabelQ_ends ..) (deriveLabelT_mute ..) ?_
  rintro ⟨st, key⟩ m q hx2 hl
  simp only at hl ⊢
  by_cases h2 : st ≠ .ok
  · simp only [if_pos h2]
    rcases hl with ⟨rfl, h, _⟩ | ⟨rfl, h, hm, rfl⟩
    · refine .ok (.same _ ?_)
      rintro ⟨s, hg⟩
      obtain ⟨c1, c2, c3, c4, c5, c6, c7, c8⟩ := ciphersuiteToHash_suite hc.cs s hg.suite
      exact h (labelFits hg.suite (hsec s hg) (by simp [zeros, hg.keySize]; exact c3))
    · exact .ok (.derivation _ (.inr (.inl h)))
  simp only [if_neg h2]
  obtain rfl : q = r := by
    rcases hl with ⟨h, _⟩ | ⟨h, _⟩
    · exact h
    · exact absurd (show st ≠ .ok by rw [h]; nofun) h2
  refine .bindMute (deriveLabelQ_ends ..) (deriveLabelT_mute ..) ?_
  rintro ⟨st, nonce⟩ m r hx3 hl
  simp only at hl ⊢
  by_cases h3 : st ≠ .ok
  · simp only [if_pos h3]
    rcases hl with ⟨rfl, h, _⟩ | ⟨rfl, h, hm, rfl⟩
    · refine .ok (.same _ ?_)
      rintro ⟨s, hg⟩
      obtain ⟨c1, c2, c3, c4, c5, c6, c7, c8⟩ := ciphersuiteToHash_suite hc.cs s hg.suite
      exact h (labelFits hg.suite (hsec s hg) (by rw [hg.nonce]; exact c4))
    · exact .ok (.derivation _ (.inr (.inr h)))
  simp only [if_neg h3]
  obtain rfl : r = q := by
    rcases hl with ⟨h, _⟩ | ⟨h, _⟩
    · exact h
    · exact absurd (show st ≠ .ok by rw [h]; nofun) h3
  have hkey : ∀ s, Good s hc → key.length = s.keyLen := by
    intro s hg
    obtain ⟨st', k, a1, a2, _⟩ := deriveKey_spec L f.key hc.cs s secret (zeros hc.keySize) hg.suite
      (hsec s hg) (by simp [zeros, hg.keySize])
    have hx2 : deriveKey L f.key hc.cs secret (zeros hc.keySize) = .ok (_, key) := hx2
    rw [hx2] at a1
    cases a1
    rw [a2]
    simp [zeros, hg.keySize]
  obtain ⟨q', e, hr⟩ := createAeadQ_eq f.create es r hc.cs key
  rw [e]
  have hquiet := createAeadT_quiet f.create (String.join (r ++ es)) hc.cs key
  rw [← hquiet]
  generalize hy : createAeadT f.create (String.join (r ++ es)) hc.cs key = x at hr hquiet ⊢
  rcases hr with ⟨rfl, _, hi⟩ | ⟨hf, rfl, m, rfl, hq⟩
  · cases x with
    | error e =>
      refine .ok (.same _ ?_)
      rintro ⟨s, hg⟩
      rw [createAead_spec f.create hc.cs s key hg.suite (hkey s hg)] at hquiet
      obtain ⟨c, m⟩ := e
      cases hf : f.create with
      | false => rw [hf] at hquiet; cases hquiet
      | true => rw [hf] at hquiet; cases hquiet; exact absurd rfl (hi m)
    | ok a => exact .ok (.same _ fun _ => rfl)
  · exact .ok (.cipher _ hf)

/-- What is left of an AEAD operation. -/
def LeftOp (es q r : ErrQueue) (a : (HalfConn × Option AeadCall × Aead.Result) × String) : Prop :=
  r = [] ∧ a.1.2.2.status ≠ .ok ∧ Quotes a.2 (q ++ es)

theorem encryptQ_ends (L : Lib) (f : EvpFault) (es q : ErrQueue) (hc : HalfConn)
    (aad plaintext : List Iovec) (out : Iovec) (hroom : totalLen plaintext ≤ out.len) :
    QueueEnds (String.join (q ++ es)) (fun r _ => r = q) (LeftOp es q)
      (encryptQ L f es q hc aad plaintext out)
      (fun t => encryptT L f t hc aad plaintext out) := by
  unfold encryptQ encryptT
  by_cases h1 : (hc.alwaysFail || hc.overflowed) = true
  · simp only [if_pos h1]; exact .ok rfl
  simp only [if_neg h1]
  refine .step ?_
  rintro ⟨n, hc'⟩ _
  refine .bind (fun t => t) (M' := fun r a => r = [] ∧ a.1.status ≠ .ok ∧ Quotes a.2 (q ++ es))
    ((Aead.encryptQ_follows L f es q hc.aead n aad plaintext out).ends (String.join (q ++ es)) ?_)
    ?_ ?_
  · rintro s a (⟨rfl, h, p, hp⟩ | ⟨_, h, _⟩)
    · exact ⟨rfl, rfl, by rw [h]; nofun, p, hp⟩
    · omega
  · rintro ⟨r, m⟩ q' ⟨rfl, _⟩
    exact .ok rfl
  · rintro ⟨r, m⟩ q' h
    exact .ok h

theorem decryptQ_ends (L : Lib) (f : EvpFault) (es q : ErrQueue) (hc : HalfConn)
    (aad ct : List Iovec) (out : Iovec) :
    QueueEnds (String.join (q ++ es)) (fun r a => r = q ∧ ∀ s, Good s hc → Good s a.1.1) (LeftOp es q)
      (decryptQ L f es q hc aad ct out) (fun t => decryptT L f t hc aad ct out) := by
  unfold decryptQ decryptT
  by_cases h1 : (hc.alwaysFail || hc.overflowed) = true
  · simp only [if_pos h1]; exact .ok ⟨rfl, fun _ h => h⟩
  simp only [if_neg h1]
  refine .step ?_
  rintro ⟨n, hc'⟩ hn
  refine .bind (fun t => t) (M' := fun r a => r = [] ∧ a.1.status ≠ .ok ∧ Quotes a.2 (q ++ es))
    ((Aead.decryptQ_follows L f es q hc.aead n aad ct out).ends (String.join (q ++ es)) ?_) ?_ ?_
  · rintro s a (⟨rfl, h, p, hp⟩ | ⟨_, h, _⟩)
    · exact ⟨rfl, rfl, by rw [h]; nofun, p, hp⟩
    · exact h.elim
  · rintro ⟨r, m⟩ q' ⟨rfl, _⟩
    refine .ok ⟨rfl, fun s hg => ?_⟩
    rw [nonceMask_spec hc hg.nonce] at hn
    cases hn
    exact ⟨hg.suite, hg.keySize, hg.nonce, hg.secret, hg.alg⟩
  · rintro ⟨r, m⟩ q' h
    exact .ok h

end HalfConn

namespace Record

theorem createQ_ends (L : Lib) (fIn fOut : KeyFault) (lateIn lateOut : Bool)
    (esIn esOut q : ErrQueue) (a : CreateArgs) :
    QueueEnds (String.join (q ++ esIn), String.join (q ++ esOut))
      (fun r x => KeptKeys fIn esIn q r x ∨ KeptKeys fOut esOut q r x)
      (fun r x => DrainedKeys fIn esIn q r x ∨ DrainedKeys fOut esOut q r x)
      (createQ L fIn fOut lateIn lateOut esIn esOut q a)
      (fun t => createT L fIn fOut ⟨t.1, lateIn⟩ ⟨t.2, lateOut⟩ a) := by
  unfold createQ createT
  by_cases h1 : a.url.isEmpty = true
  · simp only [if_pos h1]; exact .ok (.inl (.same _ nofun))
  simp only [if_neg h1]
  by_cases h2 : (!a.hasLogger) = true
  · simp only [if_pos h2]; exact .ok (.inl (.same _ nofun))
  simp only [if_neg h2]
  by_cases h3 : (!a.hasSender) = true
  · simp only [if_pos h3]; exact .ok (.inl (.same _ nofun))
  simp only [if_neg h3]
  by_cases h4 : a.tlsVersion ≠ .tls1_3
  · simp only [if_pos h4]; exact .ok (.inl (.same _ nofun))
  simp only [if_neg h4]
  refine .bind (t₀ := (String.join (q ++ esIn), String.join (q ++ esOut))) Prod.fst
    (HalfConn.createQ_ends L fIn lateIn esIn q a.ciphersuite a.inSequence a.inSecret) ?_ ?_
  · intro x r hl
    cases hl with
    | derivation m h1 h2 => exact .ok (.inl (.derivation m h1 h2))
    | same _ hi =>
      cases x with
      | error e => exact .ok (.inl (.same _ (by rintro m ⟨⟩; exact hi m rfl)))
      | ok inC =>
        simp only
        refine .bind (t₀ := (String.join (q ++ esIn), String.join (q ++ esOut))) Prod.snd
          (HalfConn.createQ_ends L fOut lateOut esOut q a.ciphersuite a.outSequence a.outSecret)
          ?_ ?_
        · intro x r hl
          cases hl with
          | derivation m h1 h2 => exact .ok (.inr (.derivation m h1 h2))
          | same _ hi =>
            cases x with
            | error e => exact .ok (.inl (.same _ (by rintro m ⟨⟩; exact hi m rfl)))
            | ok outC => exact .ok (.inl (.same _ nofun))
        · rintro x r ⟨h1, h2, m, rfl, h3⟩
          exact .ok (.inr ⟨h1, h2, m, rfl, h3⟩)
  · rintro x r ⟨h1, h2, m, rfl, h3⟩
    exact .ok (.inl ⟨h1, h2, m, rfl, h3⟩)

theorem convertStatus_failed {c : StatusCode} (h : c ≠ .ok) : convertStatus c ≠ .ok := by
  revert h; cases c <;> decide

theorem protectQ_ends (L : Lib) (f : EvpFault) (es q : ErrQueue) (c : Conn) (rt : RecordType)
    (plaintext : List Iovec) (record : Iovec) :
    QueueEnds (String.join (q ++ es)) (fun r _ => r = q)
      (fun r a => Drained (a.1.2.code ≠ .ok) a.2.message es q r)
      (protectQ L f es q c rt plaintext record)
      (fun t => protectT L f t c rt plaintext record) := by
  unfold protectQ protectT
  simp only
  by_cases h1 : totalLen plaintext > kMaxPlaintext
  · simp only [if_pos h1]; exact .ok rfl
  simp only [if_neg h1]
  by_cases h2 : record.len < totalLen plaintext + c.recordOverhead
  · simp only [if_pos h2]; exact .ok rfl
  simp only [if_neg h2]
  cases record with
  | null n => exact .ub
  | buf rb =>
    simp only
    refine .step fun rb' hrb => ?_
    cases convertRecordType rt with
    | error e => exact .ok rfl
    | ok t =>
      simp only
      refine .step fun rest hrest => ?_
      refine .bind (fun t => t) (HalfConn.encryptQ_ends L f es q c.outC _ _ rest ?_) ?_ ?_
      · have hro := recordOverhead_eq c
        have hl : rb'.length = rb.length := by
          unfold writeAt at hrb
          split at hrb
          · cases hrb
            rename_i h
            simp only [List.length_append, List.length_take, List.length_drop] at *
            omega
          · cases hrb
        have hr : rest.len = rb'.length - kHeaderLength := by
          simp only [Iovec.slice] at hrest
          split at hrest
          · cases hrest
            simp only [Iovec.len, List.length_take, List.length_drop]
            omega
          · cases hrest
        have ht : totalLen (plaintext ++ [.buf [t]]) = totalLen plaintext + 1 := by
          simp [totalLen, Iovec.len]
        have hk : kHeaderLength = 5 := rfl
        simp only [Iovec.len] at h2
        omega
      · rintro ⟨⟨outC, call, r⟩, m⟩ q' rfl
        simp only
        by_cases h3 : r.status ≠ .ok
        · simp only [if_pos h3]; exact .ok rfl
        · simp only [if_neg h3]; exact .ok rfl
      · rintro ⟨⟨outC, call, r⟩, m⟩ q' ⟨rfl, h3, h⟩
        simp only at h3 ⊢
        simp only [if_pos h3]
        exact .ok ⟨convertStatus_failed h3, rfl, h⟩

theorem handleResultQ_ends (L : Lib) (f : KeyFault) (es q : ErrQueue) (msg : String) (c : Conn)
    (r : Except StatusCode Handler.Result) :
    Mute (fun r a => r = q ∧ ((∃ s, HalfConn.Good s c.inC) → ∀ st, a.1.2.2 = some st → st = .ok) ∨
        a.1.2.1 ≠ .ok ∧ a.2.message = "Key update failed." ∧
        (DerivationFails f ∧ r = q ++ es ∨ f.create = true ∧ r = []))
      (handleResultQ L f es q msg c r) (handleResultT L f msg c r) := by
  unfold handleResultQ handleResultT
  cases r with
  | error e => exact .ok (.inl ⟨rfl, nofun⟩)
  | ok r =>
    simp only
    by_cases h1 : r.containsKeyUpdate = true
    · simp only [if_pos h1]
      refine .bind (HalfConn.updateKeyQ_ends ..) ?_
      rintro ⟨inC, st⟩ q' hl
      simp only
      by_cases h2 : st ≠ .ok
      · simp only [if_pos h2]
        cases hl with
        | same _ h => exact .ok (.inl ⟨rfl, fun hg _ e => by cases e; exact h hg⟩)
        | derivation _ h => exact .ok (.inr ⟨nofun, rfl, .inl ⟨h, rfl⟩⟩)
        | cipher _ h => exact .ok (.inr ⟨nofun, rfl, .inr ⟨h, rfl⟩⟩)
      · simp only [if_neg h2]
        cases hl with
        | same _ h => exact .step fun _ _ => .ok (.inl ⟨rfl, fun hg _ e => by cases e; exact h hg⟩)
        | derivation => exact absurd nofun h2
        | cipher => exact absurd nofun h2
    · simp only [if_neg h1]
      exact .step fun _ _ => .ok (.inl ⟨rfl, nofun⟩)

/-- What is left of a record that was decrypted. -/
def LeftRecord (good : Prop) (f : KeyFault) (es q r : ErrQueue) (a : (Conn × Result) × Said) :
    Prop :=
  Kept (a.1.2.code ≠ .ok) a.2.message f es q r ∧
  (good → ∀ st, a.1.2.rekey = some st → st ≠ .ok →
    DerivationFails f ∧ r = q ++ es ∨ f.create = true ∧ r = [])

theorem LeftRecord.same {good : Prop} {f : KeyFault} {es q : ErrQueue}
    {a : (Conn × Result) × Said} (h : good → ∀ st, a.1.2.rekey = some st → st = .ok) :
    LeftRecord good f es q q a := ⟨.same, fun hg st e hn => absurd (h hg st e) hn⟩

theorem dispatchQ_ends (L : Lib) (f : KeyFault) (es q : ErrQueue) (c : Conn)
    (call : Option HalfConn.AeadCall) (pt : Bytes) (w : Nat) :
    Mute (LeftRecord (∃ s, HalfConn.Good s c.inC) f es q)
      (dispatchQ L f es q c call pt w) (dispatchT L f c call pt w) := by
  unfold dispatchQ dispatchT
  refine .step fun x _ => ?_
  cases x with
  | none => exact .ok (.same nofun)
  | some y =>
    obtain ⟨n, t⟩ := y
    simp only
    by_cases h1 : t = kAlert
    · simp only [if_pos h1]
      by_cases h2 : n < 2
      · simp only [if_pos h2]; exact .ok (.same nofun)
      simp only [if_neg h2]
      cases pt[1]? with
      | none => exact .ub
      | some level =>
        simp only
        by_cases h3 : level = kCloseNotify
        · simp only [if_pos h3]; exact .ok (.same nofun)
        · simp only [if_neg h3]; exact .ok (.same nofun)
    simp only [if_neg h1]
    by_cases h2 : t = kHandshake
    · simp only [if_pos h2]
      refine .step ?_
      rintro ⟨h, r⟩ _
      refine .bind (handleResultQ_ends ..) ?_
      rintro ⟨⟨c', st, rekey⟩, said⟩ q' hl
      simp only at hl ⊢
      by_cases h3 : st ≠ .ok
      · simp only [if_pos h3]
        rcases hl with ⟨rfl, h⟩ | ⟨_, hm, ⟨h, rfl⟩ | ⟨h, rfl⟩⟩
        · exact .ok (.same h)
        · exact .ok ⟨.derivation nofun h ⟨_, by rw [hm]⟩, fun _ _ _ _ => .inl ⟨h, rfl⟩⟩
        · exact .ok ⟨.cipher nofun h ⟨_, by rw [hm]⟩, fun _ _ _ _ => .inr ⟨h, rfl⟩⟩
      · simp only [if_neg h3]
        rcases hl with ⟨rfl, h⟩ | ⟨h, _⟩
        · exact .ok (.same h)
        · exact absurd h h3
    simp only [if_neg h2]
    by_cases h3 : t = kAppData
    · simp only [if_pos h3]
      by_cases h4 : c.expecting = true
      · simp only [if_pos h4]; exact .ok (.same nofun)
      simp only [if_neg h4]
      by_cases h5 : c.phase = .receiving
      · simp only [if_pos h5]
        exact .step fun _ _ => .ok (.same nofun)
      simp only [if_neg h5]
      exact .ok (.same nofun)
    simp only [if_neg h3]
    exact .ok (.same nofun)

theorem unprotectQ_ends (L : Lib) (f : Fault) (es q : ErrQueue) (c : Conn) (header : Iovec)
    (payload : List Iovec) (plaintext : Iovec) :
    QueueEnds (String.join (q ++ es)) (LeftRecord (∃ s, HalfConn.Good s c.inC) f.key es q)
      (fun r a => Drained (a.1.2.code ≠ .ok) a.2.message es q r ∧ a.1.2.rekey = none)
      (unprotectQ L f es q c header payload plaintext)
      (fun t => unprotectT L f t c header payload plaintext) := by
  unfold unprotectQ unprotectT
  by_cases h1 : c.closeNotify = true
  · simp only [if_pos h1]; exact .ok (.same nofun)
  simp only [if_neg h1]
  by_cases h2 : header.len + totalLen payload < c.recordOverhead
  · simp only [if_pos h2]; exact .ok (.same nofun)
  simp only [if_neg h2]
  by_cases h3 : header.len + totalLen payload > c.recordOverhead + kMaxPlaintext
  · simp only [if_pos h3]; exact .ok (.same nofun)
  simp only [if_neg h3]
  by_cases h4 : (!validateHeader header (header.len + totalLen payload)) = true
  · simp only [if_pos h4]; exact .ok (.same nofun)
  simp only [if_neg h4]
  refine .bind (fun t => t) (HalfConn.decryptQ_ends ..) ?_ ?_
  · rintro ⟨⟨inC, call, r⟩, m⟩ q' ⟨rfl, hg⟩
    simp only at hg ⊢
    by_cases h5 : r.status ≠ .ok
    · simp only [if_pos h5]
      exact .step fun z _ => .ok (.same nofun)
    simp only [if_neg h5]
    cases r.out with
    | null n => exact .ub
    | buf pt =>
      obtain ⟨r', e, h⟩ := dispatchQ_ends L f.key es q' { c with inC := inC } call pt r.written
      exact ⟨r', e, fun a ha => .inl ⟨fun _ => ha, (h a ha).1,
        fun ⟨s, hs⟩ => (h a ha).2 ⟨s, hg s hs⟩⟩⟩
  · rintro ⟨⟨inC, call, r⟩, m⟩ q' ⟨rfl, h5, p, h⟩
    simp only at h5 h ⊢
    simp only [if_pos h5]
    refine .step fun z _ => .ok ⟨⟨nofun, rfl, "Decryption failed: " ++ p, ?_⟩, rfl⟩
    simp only
    rw [h, String.append_assoc]

end Record
end S2A
