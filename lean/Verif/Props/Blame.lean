import Verif.Lemmas.Blame
import Verif.Props.Text
import Verif.Props.ProxyExact
/-
What an error message says is so (C111).
-/
namespace S2A
open Spec Demo

theorem HmacBlame.ne {f : HkdfFault} {m : String} (h : HmacBlame f m) : m ≠ "" := by
  cases h <;> decide

theorem KeyBlame.ne {f : KeyFault} {q : String} {cs : Ciphersuite} {secret : Bytes} {m : String}
    (h : KeyBlame f q cs secret m) : m ≠ "" := by
  cases h with
  | ciphersuite => decide
  | secret => decide
  | key _ h => exact HmacBlame.ne h
  | nonce _ h => exact HmacBlame.ne h
  | aead => exact append_ne_empty _ _ (by decide)

/-! ## Creation -/

/-- Creating a connection, for any arguments and whatever the library does: a failing call
returns a message, and what it says is so: the argument it names is missing or wrong, or the
call of the library it names failed. -/
theorem C111_connection_creation (L : Lib) (fIn fOut : KeyFault) (xIn xOut : LibText)
    (a : Record.CreateArgs) (c : StatusCode)
    (h : Record.create L fIn fOut a = .ok (.error c)) :
    ∃ m, Record.createT L fIn fOut xIn xOut a = .ok (.error (c, m)) ∧ m ≠ "" ∧
      CreateBlame fIn fOut xIn.queue xOut.queue a m := by
  rw [← Record.createT_quiet L fIn fOut xIn xOut] at h
  cases hx : Record.createT L fIn fOut xIn xOut a with
  | error u => rw [hx] at h; cases h
  | ok x =>
    cases x with
    | ok c => rw [hx] at h; cases h
    | error e =>
      obtain ⟨c', m⟩ := e
      rw [hx] at h
      cases h
      have hb := Record.createT_blame hx
      refine ⟨m, rfl, ?_, hb⟩
      cases hb with
      | address => decide
      | logger => decide
      | sender => decide
      | version => decide
      | inKey _ h => exact KeyBlame.ne h
      | outKey _ h => exact KeyBlame.ne h

/-- The same for a frame protector. -/
theorem C111_protector_creation (L : Lib) (fIn fOut : KeyFault) (xIn xOut : LibText)
    (o : Frame.Options) (c : StatusCode) (h : Frame.create L fIn fOut o = .ok (.error c)) :
    ∃ m, Frame.createT L fIn fOut xIn xOut o = .ok (.error (c, m)) ∧ m ≠ "" ∧
      ProtectorBlame fIn fOut xIn.queue xOut.queue o m := by
  rw [← Frame.createT_quiet L fIn fOut xIn xOut] at h
  cases hx : Frame.createT L fIn fOut xIn xOut o with
  | error u => rw [hx] at h; cases h
  | ok x =>
    cases x with
    | ok c => rw [hx] at h; cases h
    | error e =>
      obtain ⟨c', m⟩ := e
      rw [hx] at h
      cases h
      have hb := Frame.createT_blame hx
      refine ⟨m, rfl, ?_, hb⟩
      cases hb with
      | argument => decide
      | address => decide
      | version => decide
      | inKey _ h => exact KeyBlame.ne h
      | outKey _ h => exact KeyBlame.ne h

/-- The message of a creation, if it fails. -/
def Demo.complaint {α : Type} (x : Exec (Except (StatusCode × String) α)) : Option String :=
  match x with
  | .ok (.error (_, m)) => some m
  | _ => none

/-- Witnesses: a wrong argument, a secret of the wrong size, a failing call of the library. -/
example :
    complaint (Frame.createT Lib.toy .none .none libText libText
      { Frame.Demo.leftO with hasDestroy := false }) =
      some "Failed to create |S2AFrameProtector| because of unexpected nullptr argument." ∧
    complaint (Frame.createT Lib.toy .none .none libText libText
      { Frame.Demo.leftO with crypter := { Frame.Demo.leftO.crypter with outSecret := [1] } }) =
      some "|traffic_secret| size is incorrect." ∧
    complaint (Frame.createT Lib.toy .none { KeyFault.none with create := true } libText libText
      Frame.Demo.leftO) = some "Initialization of |EVP_AEAD_CTX| failed: bad key" ∧
    complaint (Record.createT Lib.toy { KeyFault.none with nonce := ⟨false, true, fun _ => false⟩ }
      .none libText libText Record.Demo.leftArgs) = some "Initializing HMAC failed." ∧
    complaint (Record.createT Lib.toy .none .none libText libText
      { Record.Demo.leftArgs with hasSender := false }) =
      some "|ticket_sender_function| must not be nullptr." := by
  decide +kernel

/-! ## Contexts -/

/-- Serialising any context: the function with messages is the one without, and the message of a
failure is not empty and what it says is so. -/
theorem C111_context_serialize (fail : Bool) (c : Context) (e : StatusCode)
    (h : c.serialize fail = .error e) :
    ∃ m, c.serializeT fail = .error (e, m) ∧ m ≠ "" ∧ SerializeBlame fail c m := by
  rw [← Context.serializeT_quiet] at h
  cases hx : c.serializeT fail with
  | ok b => rw [hx] at h; cases h
  | error y =>
    obtain ⟨e', m⟩ := y
    rw [hx] at h
    cases h
    have hb := Context.serializeT_blame hx
    exact ⟨m, rfl, by cases hb <;> decide, hb⟩

/-- Reading any bytes as a context. -/
theorem C111_context_deserialize (utf8 : Bytes → Bool) (bs : Bytes) (e : StatusCode)
    (h : Context.deserialize utf8 bs = .error e) :
    ∃ m, Context.deserializeT utf8 bs = .error (e, m) ∧ m ≠ "" ∧ DeserializeBlame utf8 bs m := by
  rw [← Context.deserializeT_quiet] at h
  cases hx : Context.deserializeT utf8 bs with
  | ok b => rw [hx] at h; cases h
  | error y =>
    obtain ⟨e', m⟩ := y
    rw [hx] at h
    cases h
    have hb := Context.deserializeT_blame hx
    exact ⟨m, rfl, by cases hb <;> decide, hb⟩

/-- Witnesses: a context with an unknown ciphersuite; bytes that are no context, and bytes with
an unknown version. -/
example :
    (match Context.serializeT false
        ⟨[], .tls1_3, .other 7, .empty, .empty, [], [], false⟩ with
      | .error (_, m) => m
      | .ok _ => "") = "Unsupported ciphersuite." ∧
    (match Context.deserializeT (fun _ => true) [255] with
      | .error (_, m) => m
      | .ok _ => "") = "Unable to deserialize S2A context." ∧
    (match Context.deserializeT (fun _ => true) [16, 9] with
      | .error (_, m) => m
      | .ok _ => "") = "Unsupported TLS version." := by
  decide +kernel

/-! ## The proxy -/

namespace Proxy
open S2A.Proto S2A.Util
open Proxy.Demo

/-- Every history of calls, every call of `GetBytesForS2A` that fails: what its message says is
so. -/
theorem C111_bytes_for_s2a (L : Lib) (o : Options) (opts : TlsOptions) (s : State)
    (evs : List Event) (h : Reach L o s evs) (ho : o.options = some opts)
    (why : Nat → String) (xIn xOut : LibText) (e : Env) (bytes : Option Bytes) (s' : State)
    (st : Status) (asked : Asked) (said : Said)
    (hs : stepT L why xIn xOut s (.forS2A e bytes) = .ok ((s', .forS2A bytes st asked), said))
    (hf : st.code ≠ .ok) :
    ToS2ABlame o.isClient opts evs e.serializeFails (bytes.getD []) said.message := by
  have hi := h.inv
  have hso : s.options = opts := by
    have := hi.config.options
    rw [ho] at this
    exact (Option.some.inj this).symm
  cases hs
  rw [← hi.config.isClient]
  exact getBytesForS2AT_blame hso hi.first hf

/-- Every state, every call of `GetBytesForPeer` that fails: what its message says of the
bytes is so; if it says nothing, the response has no status. -/
theorem C111_bytes_for_peer (L : Lib) (s : State) (why : Nat → String) (xIn xOut : LibText)
    (dec : Bytes → Option SessionResp) (bytes : Option Bytes) (s' : State)
    (resp : Option SessionResp) (st : Status) (said : Said)
    (hs : stepT L why xIn xOut s (.forPeer dec bytes) = .ok ((s', .forPeer resp st), said))
    (hf : st.code ≠ .ok) :
    ToPeerBlame (bytes.getD []) (dec (bytes.getD [])) said.message := by
  cases hs
  exact getBytesForPeerT_blame hf

/-- Every history of calls, every call of `GetS2AContext` that fails: the handshake is not
finished, and that is what the message says. -/
theorem C111_context (L : Lib) (o : Options) (s : State) (evs : List Event)
    (h : Reach L o s evs) (why : Nat → String) (xIn xOut : LibText) (s' : State) (c : StatusCode)
    (said : Said)
    (hs : stepT L why xIn xOut s .getContext = .ok ((s', .getContext (.error c)), said)) :
    said.message = "Handshake is not finished." ∧ results evs = [] := by
  have hfin := finished_iff_results h
  unfold stepT getS2AContextT at hs
  by_cases hf : (!s.finished) = true
  · rw [if_pos hf] at hs
    cases hs
    refine ⟨rfl, ?_⟩
    simp only [Bool.not_eq_true', ← Bool.not_eq_true, hfin] at hf
    exact Classical.not_not.1 hf
  · rw [if_neg hf] at hs
    cases hs

/-- Every history of calls, every call of `CreateFrameProtector` that fails: what its message
says of the last result with a session state is so.  Missing: if that result has an unknown
ciphersuite, the message may blame the secrets instead, see `C111_wrong_blame`. -/
theorem C111_handover_partial (L : Lib) (o : Options) (opts : TlsOptions) (s : State)
    (evs : List Event) (h : Reach L o s evs) (ho : o.options = some opts)
    (why : Nat → String) (xIn xOut : LibText) (fIn fOut : KeyFault) (s' : State) (c : StatusCode)
    (said : Said)
    (hs : stepT L why xIn xOut s (.createFrameProtector fIn fOut) =
      .ok ((s', .createFrameProtector (.error c)), said)) :
    HandoverBlame opts evs fIn fOut xIn.queue xOut.queue said.message ∨
    said.message = "|traffic_secret| size is incorrect." ∧
      ∃ r st, lastStated evs = some r ∧ r.state = some st ∧
        ∀ cs, wireCiphersuite cs ≠ some st.ciphersuite := by
  have hi := h.inv
  have hso : s.options = opts := by
    have := hi.config.options
    rw [ho] at this
    exact (Option.some.inj this).symm
  have hfin := finished_iff_results h
  have hres := h.result
  simp only [stepT, HalfConn.exec_bind_eq_ok] at hs
  obtain ⟨⟨⟨s1, p⟩, said1⟩, hs, h2⟩ := hs
  cases h2
  unfold createFrameProtectorT at hs
  by_cases hf : (!s.finished) = true
  · rw [if_pos hf] at hs
    cases hs
    refine .inl (.notFinished ?_)
    simp only [Bool.not_eq_true', ← Bool.not_eq_true, hfin] at hf
    exact Classical.not_not.1 hf
  rw [if_neg hf] at hs
  cases hl : lastStated evs with
  | none =>
    rw [hres, hl] at hs
    cases hs
  | some r =>
    obtain ⟨st, hst⟩ := lastStated_state hl
    have hk : s.result = some (kept r st) := by
      rw [hres, hl]
      simp [keptOf, hst]
    rw [hk] at hs
    simp only [HalfConn.exec_bind_eq_ok] at hs
    obtain ⟨x, hx, hs⟩ := hs
    cases x with
    | ok p => cases hs
    | error y =>
      obtain ⟨c1, m⟩ := y
      cases hs
      have hb := Frame.createT_blame hx
      cases hv : tlsVersionFromProto st.tlsVersion with
      | error c =>
        -- the version is unknown
        have hver : HandoverBlame opts evs fIn fOut xIn.queue xOut.queue
            "TLS 1.3 is the only supported TLS version." :=
          .version r st hl hst (version_no_wire hv _)
        have hkept : kept r st = HsResult.fresh := by simp only [kept, hv]
        rw [hkept] at hx
        rcases createT_unusable hx with ⟨h1, rfl⟩ | ⟨_, rfl⟩ | ⟨h1, _⟩
        · exact .inl (.address (by rw [← hso]; exact h1))
        · exact .inl hver
        · cases h1
      | ok v =>
        have hv3 : v ≠ .tls1_3 → wireTlsVersion .tls1_3 ≠ some st.tlsVersion := by
          intro hne hw
          rw [tlsVersionFromProto_ok.2 hw] at hv
          cases hv
          exact hne rfl
        cases hcs : ciphersuiteFromProto st.ciphersuite with
        | error c =>
          have hkept : kept r st = { HsResult.fresh with tlsVersion := v } := by
            simp only [kept, hv, hcs]
          rw [hkept] at hx
          rcases createT_unusable hx with ⟨h1, rfl⟩ | ⟨h1, rfl⟩ | ⟨_, h1⟩
          · exact .inl (.address (by rw [← hso]; exact h1))
          · exact .inl (.version r st hl hst (hv3 h1))
          · exact .inr ⟨h1 rfl rfl, r, st, rfl, hst, suite_no_wire hcs⟩
        | ok cs =>
          have hw := ciphersuiteFromProto_ok.1 hcs
          obtain ⟨k1, k2, k3, k4⟩ : (kept r st).tlsVersion = v ∧ (kept r st).ciphersuite = cs ∧
              (kept r st).inSecret = st.inKey ∧ (kept r st).outSecret = st.outKey := by
            simp only [kept, hv, hcs]
            cases r.localIdentity <;> exact ⟨rfl, rfl, rfl, rfl⟩
          left
          cases hb with
          | argument hb => rcases hb with hb | hb | hb <;> cases hb
          | address hb => exact .address (by rw [← hso]; exact hb)
          | version hb => exact .version r st hl hst (hv3 (by rw [← k1]; exact hb))
          | inKey m hb =>
            refine .inKey _ r st cs hl hst hw ?_
            rw [← k2, ← k3]
            exact hb
          | outKey m hb =>
            refine .outKey _ r st cs hl hst hw ?_
            rw [← k2, ← k4]
            exact hb

/-- Negation of C111: every history whose last result with a session state has TLS 1.3 and an
unknown ciphersuite, with secrets of any size.  `CreateFrameProtector` blames the size of a
secret: it looks at empty secrets, and not at those in the result. -/
theorem C111_wrong_blame (L : Lib) (o : Options) (opts : TlsOptions) (s : State)
    (evs : List Event) (h : Reach L o s evs) (ho : o.options = some opts)
    (hu : opts.s2aAddress ≠ []) (r : SessionResult) (st : SessionState)
    (hl : lastStated evs = some r) (hst : r.state = some st)
    (hv : wireTlsVersion .tls1_3 = some st.tlsVersion)
    (hcs : ∀ cs, wireCiphersuite cs ≠ some st.ciphersuite)
    (why : Nat → String) (xIn xOut : LibText) (fIn fOut : KeyFault) :
    ∃ s', stepT L why xIn xOut s (.createFrameProtector fIn fOut) =
      .ok ((s', .createFrameProtector (.error .invalidArgument)),
        ⟨[], "|traffic_secret| size is incorrect."⟩) := by
  have hi := h.inv
  have hso : s.options = opts := by
    have := hi.config.options
    rw [ho] at this
    exact (Option.some.inj this).symm
  have hne : results evs ≠ [] := by
    intro hn
    unfold lastStated at hl
    rw [hn] at hl
    cases hl
  have hcs' : ∃ c, ciphersuiteFromProto st.ciphersuite = .error c := by
    cases hc : ciphersuiteFromProto st.ciphersuite with
    | error c => exact ⟨c, rfl⟩
    | ok cs => exact absurd (ciphersuiteFromProto_ok.1 hc) (hcs cs)
  obtain ⟨c, hcs'⟩ := hcs'
  have hk : s.result = some { HsResult.fresh with tlsVersion := .tls1_3 } := by
    rw [h.result, hl]
    simp only [keptOf, hst, Option.map_some, kept, tlsVersionFromProto_ok.2 hv, hcs']
  have hu' : s.options.s2aAddress.isEmpty = false := by
    rw [hso]
    simpa using hu
  refine ⟨{ s with hasFactory := false }, ?_⟩
  unfold stepT createFrameProtectorT
  rw [(finished_iff_results h).2 hne, hk]
  simp only [Bool.not_true, if_neg Bool.false_ne_true, Frame.createT, Record.createT, frameOptions,
    hu', HsResult.fresh]
  rfl

/-- Such a history: the secrets in the result have 32 bytes. -/
example : let ops := [.forS2A env none,
      doneWith { result with state := some { state with ciphersuite := 9 } }]
    runs client ops = true ∧ opts.s2aAddress ≠ [] ∧
    lastStated (hist client ops).2 =
      some { result with state := some { state with ciphersuite := 9 } } ∧
    wireTlsVersion .tls1_3 = some state.tlsVersion ∧ (∀ cs, wireCiphersuite cs ≠ some 9) ∧
    state.inKey.length = 32 :=
  ⟨by decide +kernel, by decide +kernel, by decide +kernel, rfl,
    by rintro (_ | _ | _ | _) <;> simp [wireCiphersuite], by decide +kernel⟩

/-- Witnesses: a message of each kind of call, in histories of one or two calls. -/
example :
    says (stepT Lib.toy texts libText libText (made client) (.forS2A env (some [1]))) =
      some ⟨["Handshake has not begun, not expecting bytes."],
        "Handshake has not begun, not expecting bytes."⟩ ∧
    (says (stepT Lib.toy texts libText libText (made client)
      (.forS2A { env with serializeFails := true } none))).map (·.message) =
      some "Error when serializing |ClientSessionStartReq|." ∧
    (says (stepT Lib.toy texts libText libText (hist client [.forS2A env none]).1
      (.forS2A env none))).map (·.message) = some "Handshake requires bytes from peer." ∧
    (says (stepT Lib.toy texts libText libText (made client)
      (.forPeer (fun _ => none) (some [1])))).map (·.message) =
      some "Deserializing response from the S2A failed." ∧
    (says (stepT Lib.toy texts libText libText (made client)
      (doneWith { result with localIdentity := none }))).map (·.message) =
      some "No local identity set in |s2a_proto_SessionResult|." ∧
    (says (stepT Lib.toy texts libText libText (made client) .getContext)).map (·.message) =
      some "Handshake is not finished." := by
  decide +kernel

end Proxy
end S2A
