import Verif.Lemmas.NullCopyHandler
import Verif.Lemmas.NullCopyAead
import Verif.Props.Proxy
/-
C119: null pointers given to `memcpy` and `memset`.

The functions of Model/NullCopy.lean are those of the model with one difference: copying or
clearing through a null pointer is undefined behaviour even if no byte is copied.
-/
set_option maxRecDepth 100000
namespace S2A.NullCopy
open Proto Spec.NullCopy Aead

/-! C119 in full would say: no call hands a null pointer to `memcpy` or `memset`.  It is false: of
`GetBytesForPeer`, of `GetSerializedContext` and of `Decrypt` of the crypters that use the EVP
interface.  It holds of the others. -/

/-- Making a request copies no empty message, whatever the state of the proxy, the token manager
and the options. -/
theorem C119_requests_copied (e : Proxy.Env) (s : Proxy.State) (bytes : Option Bytes) :
    getBytesForS2A e s bytes = .ok (Proxy.getBytesForS2A e s bytes) :=
  getBytesForS2A_eq e s bytes

example : ((Proxy.getBytesForS2A Proxy.Demo.env (Proxy.Demo.made Proxy.Demo.client) none).2.1.buffer
    ).isSome = true := by decide +kernel

/-- After any calls on a new handler of handshake messages, reading more bytes of such messages
copies no empty fragment, and taking the tickets out copies no empty fragment; the tickets are the
concatenations of their fragments. -/
theorem C119_handler_copied (ops : List HOp) (h : Handler) (hr : after .init ops = .ok h) :
    (∀ b, process h b = h.process b) ∧
      getStoredTickets h =
        (h.getStoredTickets).map fun x => (x.1, x.2.map fun ts => ts.map List.flatten) := by
  have hw := after_wait ops _ _ wait_init hr
  refine ⟨fun b => loop_eq _ _ _ _ _ hw, ?_⟩
  unfold getStoredTickets
  cases hg : h.getStoredTickets with
  | error e => rfl
  | ok x =>
    obtain ⟨h', r⟩ := x
    cases r with
    | error e => rfl
    | ok ts =>
      simp only [exec_bind_ok]
      rw [mapM_merge ts ((getStoredTickets_wait hw hg).2 ts rfl)]
      rfl

/-- A ticket in two pieces, cut in its header, and half of the next. -/
example : ∃ h, after .init [.process [4, 0], .process [0, 2, 8, 9, 4, 0, 0, 3, 1]] = .ok h ∧
    h.fragments = [[4, 0, 0, 3], [1]] ∧ h.fullTickets = some [[[4, 0], [0, 2], [8, 9]]] :=
  ⟨_, rfl, by decide, by decide⟩

/-- When `GetBytesForPeer` copies nothing through a null pointer: exactly when the response that it
reads is one of those of `CopiesNothing`.  For every other input it does what the rest of the model
says. -/
theorem C119_peer_exact (dec : Bytes → Option SessionResp) (s : Proxy.State)
    (bytes : Option Bytes) :
    ((∃ resp, Proxy.response dec bytes = some resp ∧ CopiesNothing resp) →
      getBytesForPeer dec s bytes = .error .nullDeref) ∧
    ((¬ ∃ resp, Proxy.response dec bytes = some resp ∧ CopiesNothing resp) →
      getBytesForPeer dec s bytes = .ok (Proxy.getBytesForPeer dec s bytes)) := by
  rcases getBytesForPeer_cases dec s bytes with ⟨h1, h2⟩ | ⟨h1, h2⟩
  · exact ⟨fun _ => h2, fun h => absurd h1 h⟩
  · exact ⟨fun h => absurd h h1, fun _ => h2⟩

/-- Proved instead of C119 for `GetBytesForPeer`: if the response has bytes for the peer, and the
state in it, if any, has both traffic secrets, then nothing is copied through a null pointer. -/
theorem C119_peer_partial (dec : Bytes → Option SessionResp) (s : Proxy.State)
    (bytes : Option Bytes)
    (h : ∀ resp, Proxy.response dec bytes = some resp → resp.outFrames ≠ [] ∧
      ∀ r st, resp.result = some r → r.state = some st → st.inKey ≠ [] ∧ st.outKey ≠ []) :
    getBytesForPeer dec s bytes = .ok (Proxy.getBytesForPeer dec s bytes) := by
  refine (C119_peer_exact dec s bytes).2 ?_
  rintro ⟨resp, h1, _, h2⟩
  obtain ⟨h3, h4⟩ := h resp h1
  cases hr : resp.result with
  | none => rw [hr] at h2; exact h3 h2
  | some r =>
    rw [hr] at h2
    obtain ⟨st, v, cs, h5, _, _, h6⟩ := h2
    rcases h6 with h6 | h6 | h6
    · exact (h4 r st hr h5).1 h6
    · exact (h4 r st hr h5).2 h6
    · exact h3 h6.2

example : Proxy.Demo.done.outFrames ≠ [] ∧ ∀ r st, Proxy.Demo.done.result = some r →
    r.state = some st → st.inKey ≠ [] ∧ st.outKey ≠ [] := by
  refine ⟨by decide, ?_⟩
  intro r st h1 h2
  cases h1
  cases h2
  decide

/-- Negation of C119 for `GetBytesForPeer`, in every state: a response with a complete result and
with no bytes for the peer, which is how a handshake ends on the side that speaks last, makes it
copy nothing through a null pointer. -/
theorem C119_last_response_copies_null (dec : Bytes → Option SessionResp) (s : Proxy.State)
    (bytes : Option Bytes) (resp : SessionResp) (h : Proxy.response dec bytes = some resp)
    (hg : Spec.Good resp) (hr : ∀ r, resp.result = some r → Spec.IsComplete r)
    (ho : resp.outFrames = []) : getBytesForPeer dec s bytes = .error .nullDeref := by
  refine (C119_peer_exact dec s bytes).1 ⟨resp, h, hg, ?_⟩
  cases hx : resp.result with
  | none => exact ho
  | some r =>
    obtain ⟨st, li, v, cs, h1, h2, h3, h4⟩ := hr r hx
    exact ⟨st, v, cs, h1, h2, h3, .inr (.inr ⟨by simp [h4], ho⟩)⟩

example : ∃ resp, resp = { Proxy.Demo.done with outFrames := [] } ∧ Spec.Good resp ∧
    (∀ r, resp.result = some r → Spec.IsComplete r) ∧
    getBytesForPeer (fun _ => some resp) (Proxy.Demo.made Proxy.Demo.server) (some [0]) =
      .error .nullDeref ∧
    (Proxy.getBytesForPeer (fun _ => some resp) (Proxy.Demo.made Proxy.Demo.server) (some [0])).2 =
      ⟨.ok, 4, some []⟩ := by
  refine ⟨_, rfl, ⟨_, rfl, rfl⟩, ?_, by decide +kernel, by decide +kernel⟩
  intro r h
  cases h
  exact ⟨Proxy.Demo.state, .spiffeId [108], .tls1_3, .aes128GcmSha256, rfl, rfl, rfl, rfl⟩

/-- When `GetSerializedContext` copies nothing through a null pointer: exactly when the context is
blank and the library does not fail.  For every other context it does what the rest of the model
says. -/
theorem C119_context_exact (fail : Bool) (c : Context) :
    (fail = false → Blank c → serialize fail c = .error .nullDeref) ∧
      (fail = true ∨ ¬ Blank c → serialize fail c = .ok (c.serialize fail)) := by
  constructor
  · intro hf hb
    subst hf
    unfold serialize
    cases hs : c.serialize false with
    | error e =>
      obtain ⟨_, h1, h2, _⟩ := hb
      simp [Context.serialize, h1, h2, Util.tlsVersionToProto, Util.ciphersuiteToProto] at hs
      cases hs
    | ok b =>
      rw [(serialize_cases hs).2 hb]
      rfl
  · intro h
    unfold serialize
    cases hs : c.serialize fail with
    | error e => rfl
    | ok b =>
      have hne : b ≠ [] := by
        intro hb
        cases fail with
        | true =>
          unfold Context.serialize at hs
          cases hv : Util.tlsVersionToProto c.tlsVersion with
          | error e => simp only [hv] at hs; cases hs
          | ok v =>
            cases hc : Util.ciphersuiteToProto c.ciphersuite with
            | error e => simp only [hv, hc] at hs; cases hs
            | ok cs => simp only [hv, hc] at hs; cases hs
        | false =>
          rcases h with h | h
          · cases h
          · exact h ((serialize_cases hs).1 hb)
      simp only [copy_ne hne]
      rfl

/-- Both kinds of context exist. -/
example : Blank ⟨[0, 104], .tls1_2, .aes128GcmSha256, .empty, .empty, [], [], false⟩ ∧
    ¬ Blank ⟨[104], .tls1_2, .aes128GcmSha256, .empty, .empty, [], [], false⟩ :=
  ⟨⟨rfl, rfl, rfl, rfl, rfl, rfl, rfl, rfl⟩, fun h => by have := h.protocol; revert this; decide⟩

/-- Proved instead of C119 for `Decrypt` of the EVP crypters: it clears and copies nothing through
a null pointer if the buffers of the ciphertext are not null and if the output buffer is not null or
the decryption succeeds. -/
theorem C119_decrypt_partial (L : Lib) (f : EvpFault) (alg : Alg) (key nonce : Bytes)
    (aad ct : List Iovec) (out : Iovec) (hc : ∀ v ∈ ct, NotNull v)
    (ho : NotNull out ∨ ∃ r, r.status = .ok ∧
      Aead.evpDecrypt L f alg key nonce aad ct out = .ok r) :
    evpDecrypt L f alg key nonce aad ct out = Aead.evpDecrypt L f alg key nonce aad ct out := by
  rcases evpDecrypt_cases L f alg key nonce aad ct out with h | ⟨_, h⟩
  · exact h
  · exfalso
    rcases h with ⟨⟨n, hn⟩, r, h1, h2⟩ | ⟨v, hv, n, hn⟩
    · rcases ho with ⟨d, hd⟩ | ⟨r', h3, h4⟩
      · rw [hd] at hn; cases hn
      · rw [h2] at h4
        cases h4
        exact h1 h3
    · obtain ⟨d, hd⟩ := hc v hv
      rw [hd] at hn; cases hn

/-- Whatever the buffers, `Decrypt` does what the rest of the model says or uses a null pointer. -/
theorem C119_decrypt_otherwise (L : Lib) (f : EvpFault) (alg : Alg) (key nonce : Bytes)
    (aad ct : List Iovec) (out : Iovec) :
    evpDecrypt L f alg key nonce aad ct out = Aead.evpDecrypt L f alg key nonce aad ct out ∨
      evpDecrypt L f alg key nonce aad ct out = .error .nullDeref := by
  rcases evpDecrypt_cases L f alg key nonce aad ct out with h | ⟨h, _⟩
  · exact .inl h
  · exact .inr h

/-- A successful decryption of the empty plaintext into a null buffer. -/
example : ∃ r, r.status = .ok ∧ Aead.evpDecrypt Lib.toy .none .aes128gcm (zeros 16) (zeros 12) []
    [.buf (Lib.toy.mac .aes128gcm (zeros 16) (zeros 12) [] [])] (.null 0) = .ok r ∧
    evpDecrypt Lib.toy .none .aes128gcm (zeros 16) (zeros 12) []
      [.buf (Lib.toy.mac .aes128gcm (zeros 16) (zeros 12) [] [])] (.null 0) = .ok r :=
  ⟨_, by decide, rfl, rfl⟩

/-- Negation of C119 for `Decrypt`: null buffers that are empty pass the checks (lines 277-279); a wrong tag then
makes it clear the empty null output, and an empty null buffer beside the tag makes it copy through
it although the decryption would succeed. -/
theorem C119_decrypt_uses_null :
    (∃ tag, evpDecrypt Lib.toy .none .aes128gcm (zeros 16) (zeros 12) [] [.buf tag] (.null 0) =
        .error .nullDeref ∧
      (Aead.evpDecrypt Lib.toy .none .aes128gcm (zeros 16) (zeros 12) [] [.buf tag] (.null 0)
        ).toOption = some ⟨.internal, 0, .null 0⟩) ∧
    ∃ tag, evpDecrypt Lib.toy .none .aes128gcm (zeros 16) (zeros 12) [] [.null 0, .buf tag]
        (.buf []) = .error .nullDeref ∧
      (Aead.evpDecrypt Lib.toy .none .aes128gcm (zeros 16) (zeros 12) [] [.null 0, .buf tag]
        (.buf [])).toOption = some ⟨.ok, 0, .buf []⟩ :=
  ⟨⟨List.replicate 16 255, by decide +kernel, by decide +kernel⟩,
    ⟨Lib.toy.mac .aes128gcm (zeros 16) (zeros 12) [] [], by decide +kernel, by decide +kernel⟩⟩

end S2A.NullCopy
