import Verif.Lemmas.NoChacha
import Verif.Props.Status
import Verif.Props.Demo
/-
C107: a build with a library that does not have ChaCha20-Poly1305.
-/
namespace S2A.NoChacha

/-- **C107, other ciphersuites.**  With any other ciphersuite nothing differs: connections, frame
protectors and frame protectors after a handshake are created, and keys are updated, as in a build
with ChaCha20-Poly1305. -/
theorem C107_other_suites (L : Lib) (fIn fOut : KeyFault) :
    (∀ a : Record.CreateArgs, a.ciphersuite ≠ .chacha20Poly1305Sha256 →
      connCreate L fIn fOut a = Record.create L fIn fOut a) ∧
    (∀ o : Frame.Options, o.crypter.ciphersuite ≠ .chacha20Poly1305Sha256 →
      frameCreate L fIn fOut o = Frame.create L fIn fOut o) ∧
    (∀ s : Proxy.State, (∀ r, s.result = some r → r.ciphersuite ≠ .chacha20Poly1305Sha256) →
      createFrameProtector L fIn fOut s = Proxy.createFrameProtector L fIn fOut s) ∧
    (∀ hc : HalfConn, hc.cs ≠ .chacha20Poly1305Sha256 →
      updateKey L fIn hc = HalfConn.updateKey L fIn hc) := by
  have hconn : ∀ a : Record.CreateArgs, a.ciphersuite ≠ .chacha20Poly1305Sha256 →
      connCreate L fIn fOut a = Record.create L fIn fOut a := by
    intro a h
    unfold connCreate Record.create
    rw [halfCreate_same L fIn _ _ _ h, halfCreate_same L fOut _ _ _ h]
    rfl
  have hframe : ∀ o : Frame.Options, o.crypter.ciphersuite ≠ .chacha20Poly1305Sha256 →
      frameCreate L fIn fOut o = Frame.create L fIn fOut o := by
    intro o h
    unfold frameCreate Frame.create
    rw [hconn { o.crypter with hasSender := true } h]
    rfl
  refine ⟨hconn, hframe, ?_, ?_⟩
  · intro s h
    unfold createFrameProtector Proxy.createFrameProtector
    cases hr : s.result with
    | none => rfl
    | some r =>
      simp only
      rw [hframe (Proxy.frameOptions s r) (h r hr)]
  · intro hc h
    unfold updateKey HalfConn.updateKey
    simp only [createAead_same _ _ _ h]
    rfl

/-- **C107, ChaCha20-Poly1305.**  A connection with ChaCha20-Poly1305 is never created, whatever
the arguments and the library do; if nothing else is wrong, the status is "failed precondition".
The same holds for frame protectors, also after a handshake that has chosen this ciphersuite. -/
theorem C107_chacha_refused (L : Lib) (fIn fOut : KeyFault) (o : Frame.Options)
    (h : o.crypter.ciphersuite = .chacha20Poly1305Sha256) :
    (∃ e, frameCreate L fIn fOut o = .ok (.error e) ∧
      e ∈ [StatusCode.invalidArgument, .internal, .failedPrecondition]) ∧
    (∃ e, connCreate L fIn fOut o.crypter = .ok (.error e) ∧
      e ∈ [StatusCode.invalidArgument, .internal, .failedPrecondition]) ∧
    (Spec.GoodArguments o → ¬ Spec.LibraryFails fIn →
      frameCreate L fIn fOut o = .ok (.error .failedPrecondition)) ∧
    (Spec.GoodArguments o → o.crypter.hasSender = true → ¬ Spec.LibraryFails fIn →
      connCreate L fIn fOut o.crypter = .ok (.error .failedPrecondition)) := by
  have hconn : ∀ a : Record.CreateArgs, a.ciphersuite = .chacha20Poly1305Sha256 →
      ∃ e, connCreate L fIn fOut a = .ok (.error e) ∧
        e ∈ [StatusCode.invalidArgument, .internal, .failedPrecondition] := by
    intro a ha
    unfold connCreate
    rw [ha, halfCreate_chacha]
    split
    · exact ⟨_, rfl, by decide⟩
    split
    · exact ⟨_, rfl, by decide⟩
    split
    · exact ⟨_, rfl, by decide⟩
    split
    · exact ⟨_, rfl, by decide⟩
    split
    · exact ⟨_, rfl, by decide⟩
    split
    · exact ⟨_, rfl, by decide⟩
    · exact ⟨_, rfl, by decide⟩
  have hgood : ∀ a : Record.CreateArgs, a.ciphersuite = .chacha20Poly1305Sha256 → a.url ≠ [] →
      a.hasLogger = true → a.hasSender = true → a.tlsVersion = .tls1_3 →
      a.inSecret.length = 32 → ¬ Spec.LibraryFails fIn →
      connCreate L fIn fOut a = .ok (.error .failedPrecondition) := by
    intro a ha h1 h2 h3 h4 h5 h6
    unfold connCreate
    rw [ha, halfCreate_chacha, if_neg (by simpa using h1), if_neg (by simp [h2]),
      if_neg (by simp [h3]), if_neg (by simp [h4]), if_neg (by simp [h5]),
      if_neg (fun h => h.elim (fun h => h6 (.inl h)) (fun h => h6 (.inr (.inl h))))]
    rfl
  have hin : Spec.GoodArguments o → o.crypter.inSecret.length = 32 := by
    intro hg
    obtain ⟨su, hs, hl, _⟩ := hg.secrets
    rw [h] at hs
    cases hs
    exact hl
  refine ⟨?_, hconn _ h, ?_, ?_⟩
  · unfold frameCreate
    split
    · exact ⟨_, rfl, by decide⟩
    · obtain ⟨e, he, hm⟩ := hconn { o.crypter with hasSender := true } h
      rw [he]
      exact ⟨e, rfl, hm⟩
  · intro hg hf
    unfold frameCreate
    rw [if_neg (by simp [hg.allocator, hg.destroy, hg.logger]),
      hgood { o.crypter with hasSender := true } h hg.address hg.logger rfl hg.version (hin hg) hf]
    rfl
  · intro hg hs hf
    exact hgood _ h hg.address hg.logger hs hg.version (hin hg) hf

/-- **C107, it is offered all the same.**  Options take ChaCha20-Poly1305 in every build, and a proxy
whose handshake has chosen it says that the handshake is finished, but gives no frame protector. -/
theorem C107_offered_all_the_same (L : Lib) (fIn fOut : KeyFault) :
    (∀ o : TlsOptions, .chacha20Poly1305Sha256 ∈
      (o.apply (.addCiphersuite .chacha20Poly1305Sha256)).ciphersuites) ∧
    ∀ (s : Proxy.State) (r : Proxy.HsResult), s.finished = true → s.result = some r →
      r.ciphersuite = .chacha20Poly1305Sha256 →
      ∃ e, createFrameProtector L fIn fOut s = .ok ({ s with hasFactory := false }, .error e) := by
  refine ⟨by simp [TlsOptions.apply], ?_⟩
  intro s r h1 h2 h3
  obtain ⟨⟨e, he, _⟩, _⟩ := C107_chacha_refused L fIn fOut (Proxy.frameOptions s r) h3
  refine ⟨e, ?_⟩
  unfold createFrameProtector
  rw [h1, h2]
  simp only [Bool.not_true, Bool.false_eq_true, if_false]
  rw [he]
  rfl

/-- **C107, the crypter itself.**  No key gives a crypter for ChaCha20-Poly1305: a key that has not 32
bytes is an invalid argument, as in other builds, and every other key is refused with "failed
precondition". -/
theorem C107_crypter_refused (key : Bytes) (fail : Bool) :
    (key.length = 32 → createChachaPoly key = .error .failedPrecondition) ∧
    (key.length ≠ 32 → createChachaPoly key = .error .invalidArgument ∧
      Aead.createChachaPoly fail key = .error .invalidArgument) := by
  unfold createChachaPoly Aead.createChachaPoly Aead.kChachaKeySize
  refine ⟨fun h => if_neg (by simp [h]), fun h => ⟨if_pos h, if_pos h⟩⟩

example : createChachaPoly (zeros 32) = .error .failedPrecondition ∧
    (∃ c, Aead.createChachaPoly false (zeros 32) = .ok c) ∧
    createChachaPoly (zeros 31) = .error .invalidArgument :=
  ⟨by rfl, ⟨_, by rfl⟩, by rfl⟩

/-- Arguments that are good for every ciphersuite with secrets of 32 bytes. -/
def demoArgs (cs : Ciphersuite) : Frame.Options :=
  ⟨{ Record.Demo.leftArgs with ciphersuite := cs, inSecret := zeros 32, outSecret := zeros 32 },
    true, true⟩

example : (∃ s, Frame.create Lib.toy .none .none (demoArgs .chacha20Poly1305Sha256) = .ok (.ok s)) ∧
    frameCreate Lib.toy .none .none (demoArgs .chacha20Poly1305Sha256)
      = .ok (.error .failedPrecondition) ∧
    (∃ s, frameCreate Lib.toy .none .none (demoArgs .aes128GcmSha256) = .ok (.ok s)) := by
  refine ⟨⟨_, by rfl⟩, by rfl, ⟨_, by rfl⟩⟩

end S2A.NoChacha
