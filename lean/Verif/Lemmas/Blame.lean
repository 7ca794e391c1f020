import Verif.Spec.Blame
import Verif.Lemmas.Status
import Verif.Lemmas.TextProxy
import Verif.Lemmas.ProxyResult
/-
What is so when a message is returned.
-/
namespace S2A
open HalfConn (exec_bind_eq_ok)

/-! ### Keys -/

theorem Hkdf.deriveSecretT_blame {L : Lib} {f : HkdfFault} {late : Bool} {h : HashFn}
    {prk info out out' : Bytes} {st : StatusCode} {m : String}
    (ho : h ≠ .other) (hp : h.digestSize ≤ prk.length) (hout : out.length ≤ h.digestSize)
    (h0 : out ≠ []) (hx : deriveSecretT L f late h prk info out = .ok ((st, out'), m))
    (hst : st ≠ .ok) : Spec.HmacBlame f m := by
  have hd : 0 < h.digestSize := by
    have := List.length_pos_iff.2 h0
    omega
  have hn : (out.length + h.digestSize - 1) / h.digestSize = 1 := by
    have := List.length_pos_iff.2 h0
    have h1 : 1 ≤ (out.length + h.digestSize - 1) / h.digestSize := by
      rw [Nat.le_div_iff_mul_le hd]; omega
    have h2 : (out.length + h.digestSize - 1) / h.digestSize < 2 := by
      rw [Nat.div_lt_iff_lt_mul hd]; omega
    omega
  have e : deriveSecretT L f late h prk info out =
      if f.ctxNew then .ok ((.internal, out), "Could not generate new HMAC context.")
      else derivationT L h f late 1 prk info out := by
    cases h with
    | other => exact absurd rfl ho
    | sha256 =>
      simp only [deriveSecretT]
      rw [if_neg (by omega), hn, if_neg (by omega)]
    | sha384 =>
      simp only [deriveSecretT]
      rw [if_neg (by omega), hn, if_neg (by omega)]
  rw [e] at hx
  by_cases h1 : f.ctxNew = true
  · rw [if_pos h1] at hx; cases hx; exact .context h1
  rw [if_neg h1] at hx
  unfold derivationT at hx
  by_cases h2 : f.init = true
  · rw [if_pos h2] at hx; cases hx; exact .init h2
  rw [if_neg h2, loopT] at hx
  by_cases h3 : f.step 0 = true
  · rw [if_pos h3] at hx; cases hx; exact .step h3
  rw [if_neg h3] at hx
  simp only [exec_bind_eq_ok] at hx
  obtain ⟨_, _, _, _, hx⟩ := hx
  rw [loopT] at hx
  cases hx
  exact absurd rfl hst

theorem HalfConn.createT_blame {L : Lib} {f : KeyFault} {x : LibText} {cs : Ciphersuite}
    {q : UInt64} {secret : Bytes} {c : StatusCode} {m : String}
    (h : createT L f x cs q secret = .ok (.error (c, m))) :
    Spec.KeyBlame f x.queue cs secret m := by
  unfold createT at h
  cases hs : Spec.suite cs with
  | none =>
    rw [suite_none_sizes cs hs] at h
    cases h
    exact .ciphersuite hs
  | some su =>
    obtain ⟨c1, c2, c3, c4, c5, c6, c7, c8⟩ := ciphersuiteToHash_suite cs su hs
    have hk0 : 0 < su.keyLen := by
      clear c1 c2 c3 c4 c5 c6 c7 c8 h
      cases cs <;> simp only [Spec.suite, reduceCtorEq, Option.some.injEq] at hs <;> subst hs <;>
        decide
    rw [sizes_suite cs su hs] at h
    simp only at h
    by_cases hl : secret.length = su.hash.digestSize
    case neg =>
      rw [if_pos (by simpa using hl)] at h
      cases h
      exact .secret su hs hl
    rw [if_neg (by simpa using hl)] at h
    simp only [exec_bind_eq_ok] at h
    obtain ⟨⟨⟨st1, key⟩, m1⟩, h1, h⟩ := h
    by_cases g1 : st1 = .ok
    case neg =>
      simp only [ne_eq, g1, not_false_eq_true, if_true] at h
      cases h
      unfold deriveLabelT at h1
      rw [c1] at h1
      exact .key _ (Hkdf.deriveSecretT_blame c2 (by omega) (by simp; omega)
        (by intro h; have := congrArg List.length h; simp at this; omega) h1 g1)
    simp only [ne_eq, g1, not_true_eq_false, if_false, exec_bind_eq_ok] at h
    obtain ⟨⟨⟨st2, nonce⟩, m2⟩, h2, h⟩ := h
    by_cases g2 : st2 = .ok
    case neg =>
      simp only [ne_eq, g2, not_false_eq_true, if_true] at h
      cases h
      unfold deriveLabelT at h2
      rw [c1] at h2
      exact .nonce _ (Hkdf.deriveSecretT_blame c2 (by omega) (by simp; omega) (by decide) h2 g2)
    simp only [ne_eq, g2, not_true_eq_false, if_false] at h
    have hlen : key.length = su.keyLen := by
      obtain ⟨_, _, j1, j2, _⟩ := deriveKey_spec L f.key cs su secret (zeros su.keyLen) hs hl (by simp)
      unfold deriveKey at j1
      rw [← deriveLabelT_mute L f.key x.late, h1] at j1
      cases j1
      simpa using j2
    cases ha : createAeadT f.create x.queue cs key with
    | ok a => rw [ha] at h; cases h
    | error e =>
      rw [ha] at h
      cases h
      clear h1 h2 c1 c2 c3 c4 c5 c6 c7 c8 hl
      cases cs <;> simp only [Spec.suite, reduceCtorEq, Option.some.injEq] at hs <;> subst hs <;>
        simp only at hlen <;>
        simp only [createAeadT, Aead.createAesGcmT, Aead.createChachaPolyT, hlen] at ha
      · rw [if_pos (by decide)] at ha
        split at ha <;> cases ha
        exact .aead (by assumption)
      · rw [if_neg (by decide), if_pos (by decide)] at ha
        split at ha <;> cases ha
        exact .aead (by assumption)
      · rw [if_neg (by decide)] at ha
        split at ha <;> cases ha
        exact .aead (by assumption)

theorem Record.createT_blame {L : Lib} {fIn fOut : KeyFault} {xIn xOut : LibText}
    {a : CreateArgs} {c : StatusCode} {m : String}
    (h : createT L fIn fOut xIn xOut a = .ok (.error (c, m))) :
    Spec.CreateBlame fIn fOut xIn.queue xOut.queue a m := by
  unfold createT at h
  by_cases h1 : a.url.isEmpty = true
  · rw [if_pos h1] at h; cases h; exact .address (by simpa using h1)
  rw [if_neg h1] at h
  by_cases h2 : (!a.hasLogger) = true
  · rw [if_pos h2] at h; cases h; exact .logger (by simpa using h2)
  rw [if_neg h2] at h
  by_cases h3 : (!a.hasSender) = true
  · rw [if_pos h3] at h; cases h; exact .sender (by simpa using h3)
  rw [if_neg h3] at h
  by_cases h4 : a.tlsVersion ≠ .tls1_3
  · rw [if_pos h4] at h; cases h; exact .version h4
  rw [if_neg h4] at h
  simp only [exec_bind_eq_ok] at h
  obtain ⟨y, hy, h⟩ := h
  cases y with
  | error e => cases h; exact .inKey _ (HalfConn.createT_blame hy)
  | ok inC =>
    simp only [exec_bind_eq_ok] at h
    obtain ⟨z, hz, h⟩ := h
    cases z with
    | error e => cases h; exact .outKey _ (HalfConn.createT_blame hz)
    | ok outC => cases h

theorem Frame.createT_blame {L : Lib} {fIn fOut : KeyFault} {xIn xOut : LibText}
    {o : Options} {c : StatusCode} {m : String}
    (h : createT L fIn fOut xIn xOut o = .ok (.error (c, m))) :
    Spec.ProtectorBlame fIn fOut xIn.queue xOut.queue o m := by
  unfold createT at h
  by_cases h1 : (!o.hasAllocator || !o.hasDestroy || !o.crypter.hasLogger) = true
  · rw [if_pos h1] at h
    cases h
    refine .argument ?_
    simpa [or_assoc] using h1
  rw [if_neg h1] at h
  simp only [exec_bind_eq_ok] at h
  obtain ⟨y, hy, h⟩ := h
  cases y with
  | ok y => cases h
  | error e =>
    cases h
    have hb := Record.createT_blame hy
    cases hb with
    | address hb => exact .address hb
    | logger hb =>
      exfalso
      exact h1 (by simp only at hb; simp [hb])
    | sender hb => cases hb
    | version hb => exact .version hb
    | inKey m hb => exact .inKey _ hb
    | outKey m hb => exact .outKey _ hb

/-! ### The proxy -/

namespace Proxy
open Spec (requests results wireTlsVersion wireCiphersuite wireIdentity)
open S2A.Proto S2A.Util

theorem withText_bind_blame {α β : Type} {m : String} {x : Except StatusCode α}
    {g : α → Except (StatusCode × String) β} {c : StatusCode} {t : String}
    (h : (withText m x >>= g) = .error (c, t)) :
    (t = m ∧ ∃ e, x = .error e) ∨ ∃ a, g a = .error (c, t) := by
  cases x with
  | error e => cases h; exact Or.inl ⟨rfl, _, rfl⟩
  | ok a => exact Or.inr ⟨a, h⟩

theorem version_none {v : TlsVersion} {e : StatusCode} (h : tlsVersionToProto v = .error e) :
    wireTlsVersion v = none := by
  rw [tlsVersionToProto_eq] at h
  cases hw : wireTlsVersion v with
  | none => rfl
  | some n => rw [hw] at h; cases h

theorem suites_none {l : List Ciphersuite} {e : StatusCode}
    (h : l.mapM ciphersuiteToProto = .error e) : ∃ c ∈ l, wireCiphersuite c = none := by
  rw [mapM_option ciphersuiteToProto wireCiphersuite ciphersuiteToProto_eq] at h
  have hn : ¬ (l.mapM wireCiphersuite).isSome = true := by
    cases hx : l.mapM wireCiphersuite with
    | none => simp
    | some x => rw [hx] at h; cases h
  rw [mapM_isSome] at hn
  simpa using hn

theorem ids_none {l : List Identity} {e : StatusCode} (h : convertIds l = .error e) :
    ∃ i ∈ l, wireIdentity i = none := by
  rw [convertIds_eq] at h
  have hn : ¬ (wireIds l).isSome = true := by
    cases hx : wireIds l with
    | none => simp
    | some x => rw [hx] at h; cases h
  rw [wireIds, mapM_isSome] at hn
  simp only [isSome_toProto] at hn
  simpa using hn

theorem clientStartT_blame {e : Env} {s : State} {c : StatusCode} {m : String}
    {o : TlsOptions} {evs : List Event} {bytes : Bytes} (ho : s.options = o)
    (hq : requests evs = [])
    (h : clientStartT e s = .error (c, m)) :
    Spec.ToS2ABlame true o evs e.serializeFails bytes m := by
  subst ho
  unfold clientStartT at h
  rcases withText_bind_blame h with ⟨rfl, _, h⟩ | ⟨_, h⟩
  · exact .version hq (.inl (version_none h))
  rcases withText_bind_blame h with ⟨rfl, _, h⟩ | ⟨_, h⟩
  · exact .version hq (.inr (version_none h))
  rcases withText_bind_blame h with ⟨rfl, _, h⟩ | ⟨_, h⟩
  · obtain ⟨x, hx, hn⟩ := suites_none h
    exact .ciphersuite x hq hx hn
  rcases withText_bind_blame h with ⟨rfl, _, h⟩ | ⟨_, h⟩
  · obtain ⟨x, hx, hn⟩ := ids_none h
    exact .identity x hq (.inr ⟨rfl, (e.orderIds_perm _).mem_iff.1 hx⟩) hn
  split at h
  · cases h
    exact .locals hq rfl (by assumption)
  rcases withText_bind_blame h with ⟨rfl, _, h⟩ | ⟨_, h⟩
  · obtain ⟨x, hx, hn⟩ := ids_none h
    exact .identity x hq (.inl hx) hn
  · cases h

theorem serverStartT_blame {e : Env} {s : State} {b : Option Bytes} {c : StatusCode} {m : String}
    {o : TlsOptions} {evs : List Event} {bytes : Bytes} {isClient : Bool} (ho : s.options = o)
    (hq : requests evs = []) (h : serverStartT e s b = .error (c, m)) :
    Spec.ToS2ABlame isClient o evs e.serializeFails bytes m := by
  subst ho
  unfold serverStartT at h
  rcases withText_bind_blame h with ⟨rfl, _, h⟩ | ⟨_, h⟩
  · exact .version hq (.inl (version_none h))
  rcases withText_bind_blame h with ⟨rfl, _, h⟩ | ⟨_, h⟩
  · exact .version hq (.inr (version_none h))
  rcases withText_bind_blame h with ⟨rfl, _, h⟩ | ⟨_, h⟩
  · obtain ⟨x, hx, hn⟩ := suites_none h
    exact .ciphersuite x hq hx hn
  rcases withText_bind_blame h with ⟨rfl, _, h⟩ | ⟨_, h⟩
  · obtain ⟨x, hx, hn⟩ := ids_none h
    exact .identity x hq (.inl ((e.orderIds_perm _).mem_iff.1 hx)) hn
  · cases h

theorem finishRequestT_blame {w : Nat → String} {e : Env} {s : State} {kind : ReqKind}
    {error : String} (h : (finishRequestT w e s kind error).1.2.1.code ≠ .ok) :
    e.serializeFails = true ∧ (finishRequestT w e s kind error).2.message = error := by
  unfold finishRequestT at h ⊢
  by_cases hf : e.serializeFails = true
  · refine ⟨hf, ?_⟩
    simp only [hf, if_true]
  · simp [hf] at h

theorem getBytesForS2AT_blame {w : Nat → String} {e : Env} {s : State} {bytes : Option Bytes}
    {o : TlsOptions} {evs : List Event} (ho : s.options = o)
    (hq : s.first = true ↔ requests evs = [])
    (h : (getBytesForS2AT w e s bytes).1.2.1.code ≠ .ok) :
    Spec.ToS2ABlame s.isClient o evs e.serializeFails (bytes.getD [])
      (getBytesForS2AT w e s bytes).2.message := by
  unfold getBytesForS2AT at h ⊢
  by_cases h1 : s.first = true
  · have hq := hq.1 h1
    rw [if_pos h1] at h ⊢
    by_cases h2 : (s.isClient && (bytes.getD []) != []) = true
    · rw [if_pos h2]
      simp at h2
      exact .notBegun hq h2.1 h2.2
    · rw [if_neg h2] at h ⊢
      by_cases h3 : s.isClient = true
      · simp only [if_pos h3] at h ⊢
        rw [h3]
        unfold getClientStartT at h ⊢
        cases hx : clientStartT e s with
        | error x =>
          rw [hx] at h
          exact clientStartT_blame ho hq hx
        | ok m =>
          rw [hx] at h
          have := finishRequestT_blame h
          simp only
          rw [this.2]
          exact .clientStart hq rfl this.1
      · simp only [if_neg h3] at h ⊢
        unfold getServerStartT at h ⊢
        cases hx : serverStartT e s bytes with
        | error x =>
          rw [hx] at h
          exact serverStartT_blame ho hq hx
        | ok m =>
          rw [hx] at h
          have := finishRequestT_blame h
          simp only
          rw [this.2]
          exact .serverStart hq (by simpa using h3) this.1
  · have hq : requests evs ≠ [] := fun hh => h1 (hq.2 hh)
    rw [if_neg h1] at h ⊢
    by_cases h2 : (bytes.getD [] == []) = true
    · rw [if_pos h2]
      exact .needsBytes hq (by simpa using h2)
    · rw [if_neg h2] at h ⊢
      have := finishRequestT_blame h
      unfold getNextT
      rw [this.2]
      exact .next hq this.1

theorem version_no_wire {n : Nat} {e : StatusCode} (h : tlsVersionFromProto n = .error e) :
    ∀ v, wireTlsVersion v ≠ some n := by
  intro v hv
  rw [tlsVersionFromProto_ok.2 hv] at h
  cases h

theorem suite_no_wire {n : Nat} {e : StatusCode} (h : ciphersuiteFromProto n = .error e) :
    ∀ v, wireCiphersuite v ≠ some n := by
  intro v hv
  rw [ciphersuiteFromProto_ok.2 hv] at h
  cases h

theorem handleResultT_blame {s : State} {resp : SessionResp} {r : SessionResult} {bytes : Bytes}
    (hg : Spec.Good resp) (hr : resp.result = some r) (h : (handleResultT s r).1.2 ≠ none) :
    Spec.ToPeerBlame bytes (some resp) (handleResultT s r).2.message := by
  unfold handleResultT at h ⊢
  cases hs : r.state with
  | none => exact .noState resp r rfl hg hr hs
  | some st =>
    rw [hs] at h
    simp only at h ⊢
    cases hv : tlsVersionFromProto st.tlsVersion with
    | error c => exact .version resp r st rfl hg hr hs (version_no_wire hv)
    | ok v =>
      rw [hv] at h
      simp only at h ⊢
      cases hc : ciphersuiteFromProto st.ciphersuite with
      | error c => exact .ciphersuite resp r st rfl hg hr hs (suite_no_wire hc)
      | ok cs =>
        rw [hc] at h
        simp only at h ⊢
        cases hl : r.localIdentity with
        | none => exact .noLocalIdentity resp r rfl hg hr hl
        | some li => rw [hl] at h; exact absurd rfl h

theorem getBytesForPeerT_blame {dec : Bytes → Option SessionResp} {s : State}
    {bytes : Option Bytes} (h : (getBytesForPeerT dec s bytes).1.2.code ≠ .ok) :
    Spec.ToPeerBlame (bytes.getD []) (dec (bytes.getD []))
      (getBytesForPeerT dec s bytes).2.message := by
  unfold getBytesForPeerT at h ⊢
  by_cases h1 : (bytes.getD [] == []) = true
  · rw [if_pos h1]
    exact .needsBytes (by simpa using h1)
  rw [if_neg h1] at h ⊢
  cases hd : dec (bytes.getD []) with
  | none => exact .malformed (by simpa using h1) rfl
  | some resp =>
    rw [hd] at h
    simp only at h ⊢
    cases hs : resp.status with
    | none => exact .noStatus resp rfl hs
    | some status =>
      rw [hs] at h
      simp only at h ⊢
      by_cases hc : status.code ≠ 0
      · simp only [if_pos hc]
        exact .reported resp status rfl hs hc
      · simp only [if_neg hc] at h ⊢
        have hg : Spec.Good resp := ⟨status, hs, by simpa using hc⟩
        cases hr : resp.result with
        | none =>
          rw [hr] at h
          simp at h
        | some r =>
          rw [hr] at h
          have fin : ∀ (q : State), ∀ y : (State × Status) × Said,
              y = (match handleResultT q r with
                | ((s, some c), said) => ((s, .fail c), said)
                | ((s, none), said) =>
                  ((s, ⟨.ok, resp.bytesConsumed, some resp.outFrames⟩), ⟨said.log, ""⟩)) →
              y.1.2.code ≠ .ok → Spec.ToPeerBlame (bytes.getD []) (some resp) y.2.message := by
            intro q y hy hcode
            have hb := handleResultT_blame (s := q) (bytes := bytes.getD []) hg hr
            generalize handleResultT q r = x at hy hb
            obtain ⟨⟨s', c⟩, said⟩ := x
            subst hy
            cases c with
            | none => exact absurd rfl hcode
            | some c => exact hb (by simp)
          exact fin _ _ rfl h

theorem createT_unusable {L : Lib} {fIn fOut : KeyFault} {xIn xOut : LibText} {s : State}
    {r : HsResult} {c : StatusCode} {m : String}
    (h : Frame.createT L fIn fOut xIn xOut (frameOptions s r) = .ok (.error (c, m))) :
    (s.options.s2aAddress = [] ∧ m = "|handshaker_service_url| is empty.") ∨
    (r.tlsVersion ≠ .tls1_3 ∧ m = "TLS 1.3 is the only supported TLS version.") ∨
    (r.tlsVersion = .tls1_3 ∧
      (r.ciphersuite = .aes128GcmSha256 → r.inSecret = [] →
        m = "|traffic_secret| size is incorrect.")) := by
  unfold Frame.createT Record.createT at h
  rw [if_neg (by simp [frameOptions])] at h
  simp only [exec_bind_eq_ok] at h
  obtain ⟨y, hy, h⟩ := h
  cases y with
  | ok y => cases h
  | error y =>
    cases h
    split at hy
    next hu =>
      cases hy
      exact .inl ⟨by simpa [frameOptions] using hu, rfl⟩
    rw [if_neg (by simp [frameOptions]), if_neg (by simp)] at hy
    split at hy
    next hv =>
      cases hy
      exact .inr (.inl ⟨hv, rfl⟩)
    next hv =>
      refine .inr (.inr ⟨Classical.not_not.1 hv, fun h1 h2 => ?_⟩)
      simp only [frameOptions, h1, h2] at hy
      cases hy
      rfl

end Proxy

/-! ### Contexts -/

theorem Context.serializeT_quiet (fail : Bool) (c : Context) :
    quiet (c.serializeT fail) = c.serialize fail := by
  unfold Context.serializeT Context.serialize
  cases Util.tlsVersionToProto c.tlsVersion with
  | error e => rfl
  | ok v =>
    cases Util.ciphersuiteToProto c.ciphersuite with
    | error e => rfl
    | ok cs => cases fail <;> rfl

theorem Context.deserializeT_quiet (utf8 : Bytes → Bool) (bs : Bytes) :
    quiet (Context.deserializeT utf8 bs) = Context.deserialize utf8 bs := by
  unfold Context.deserializeT Context.deserialize
  cases Proto.PContext.parse utf8 bs with
  | none => rfl
  | some m =>
    simp only
    cases Util.tlsVersionFromProto m.tlsVersion with
    | error e => rfl
    | ok v =>
      cases Util.ciphersuiteFromProto m.ciphersuite with
      | error e => rfl
      | ok cs => rfl

theorem Context.serializeT_blame {fail : Bool} {c : Context} {e : StatusCode} {m : String}
    (h : c.serializeT fail = .error (e, m)) : Spec.SerializeBlame fail c m := by
  unfold Context.serializeT at h
  rcases Proxy.withText_bind_blame h with ⟨rfl, _, h⟩ | ⟨_, h⟩
  · exact .version (Proxy.version_none h)
  rcases Proxy.withText_bind_blame h with ⟨rfl, _, h⟩ | ⟨_, h⟩
  · refine .ciphersuite ?_
    rw [ciphersuiteToProto_eq] at h
    cases hw : Spec.wireCiphersuite c.ciphersuite with
    | none => rfl
    | some n => rw [hw] at h; cases h
  · cases hf : fail with
    | false => rw [hf] at h; cases h
    | true => rw [hf] at h; cases h; exact .serialize rfl

theorem Context.deserializeT_blame {utf8 : Bytes → Bool} {bs : Bytes} {e : StatusCode}
    {m : String} (h : Context.deserializeT utf8 bs = .error (e, m)) :
    Spec.DeserializeBlame utf8 bs m := by
  unfold Context.deserializeT at h
  cases hp : Proto.PContext.parse utf8 bs with
  | none => rw [hp] at h; cases h; exact .malformed hp
  | some x =>
    rw [hp] at h
    simp only at h
    rcases Proxy.withText_bind_blame h with ⟨rfl, _, h⟩ | ⟨_, h⟩
    · exact .version x hp (Proxy.version_no_wire h)
    rcases Proxy.withText_bind_blame h with ⟨rfl, _, h⟩ | ⟨_, h⟩
    · exact .ciphersuite x hp (Proxy.suite_no_wire h)
    · cases h

end S2A
