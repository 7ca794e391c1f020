import Verif.Lemmas.Status
import Verif.Props.ProxyExact
/-
The status code of a refused call says why it was refused (C97).
-/
namespace S2A.Frame
open Demo

/-- Creating a frame protector.  Whatever the library does, the call either gives a protector,
or reports INVALID_ARGUMENT, and then the arguments are not usable, or reports INTERNAL, and
then a call of the cryptographic library failed.  If no call of the library fails, unusable
arguments give INVALID_ARGUMENT and usable ones a protector; and if the arguments are usable, a
failing library gives INTERNAL. -/
theorem C97_protector_creation (L : Lib) (fIn fOut : KeyFault) (o : Options) :
    (create L fIn fOut o = .ok (.error .invalidArgument) ∧ ¬ Spec.GoodArguments o ∨
      create L fIn fOut o = .ok (.error .internal) ∧
        (Spec.LibraryFails fIn ∨ Spec.LibraryFails fOut) ∨
      (∃ s, create L fIn fOut o = .ok (.ok s)) ∧ Spec.GoodArguments o ∧
        ¬ Spec.LibraryFails fIn ∧ ¬ Spec.LibraryFails fOut) ∧
    (Spec.GoodArguments o → Spec.LibraryFails fIn ∨ Spec.LibraryFails fOut →
      create L fIn fOut o = .ok (.error .internal)) := by
  obtain ⟨i1, i2⟩ := HalfConn.create_code L fIn o.crypter.ciphersuite o.crypter.inSequence
    o.crypter.inSecret
  obtain ⟨o1, o2⟩ := HalfConn.create_code L fOut o.crypter.ciphersuite o.crypter.outSequence
    o.crypter.outSecret
  have key : ∀ {x}, create L fIn fOut o = x →
      ((x = .ok (.error .invalidArgument) ∧ ¬ Spec.GoodArguments o ∨
        x = .ok (.error .internal) ∧ (Spec.LibraryFails fIn ∨ Spec.LibraryFails fOut) ∨
        (∃ s, x = .ok (.ok s)) ∧ Spec.GoodArguments o ∧
          ¬ Spec.LibraryFails fIn ∧ ¬ Spec.LibraryFails fOut)) →
      ((create L fIn fOut o = .ok (.error .invalidArgument) ∧ ¬ Spec.GoodArguments o ∨
        create L fIn fOut o = .ok (.error .internal) ∧
          (Spec.LibraryFails fIn ∨ Spec.LibraryFails fOut) ∨
        (∃ s, create L fIn fOut o = .ok (.ok s)) ∧ Spec.GoodArguments o ∧
          ¬ Spec.LibraryFails fIn ∧ ¬ Spec.LibraryFails fOut) ∧
      (Spec.GoodArguments o → Spec.LibraryFails fIn ∨ Spec.LibraryFails fOut →
        create L fIn fOut o = .ok (.error .internal))) := by
    intro x hx h
    rw [hx]
    refine ⟨h, fun hu hf => ?_⟩
    rcases h with ⟨_, h⟩ | ⟨h, _⟩ | ⟨_, _, h1, h2⟩
    · exact absurd hu h
    · exact h
    · rcases hf with hf | hf
      · exact absurd hf h1
      · exact absurd hf h2
  by_cases hc : (!o.hasAllocator || !o.hasDestroy || !o.crypter.hasLogger) = true
  · refine key (x := .ok (.error .invalidArgument)) (by unfold create; rw [if_pos hc]) ?_
    refine .inl ⟨rfl, fun hu => ?_⟩
    simp [hu.allocator, hu.destroy, hu.logger] at hc
  by_cases hu1 : o.crypter.url.isEmpty = true
  · refine key (x := .ok (.error .invalidArgument)) ?_ ?_
    · unfold create Record.create
      rw [if_neg hc, if_pos hu1]
      rfl
    · refine .inl ⟨rfl, fun hu => hu.address ?_⟩
      simpa using hu1
  have hlog : ¬ (!o.crypter.hasLogger) = true := by
    intro h
    exact hc (by rw [h]; simp)
  by_cases hv : o.crypter.tlsVersion ≠ .tls1_3
  · refine key (x := .ok (.error .invalidArgument)) ?_ ?_
    · unfold create Record.create
      rw [if_neg hc, if_neg hu1, if_neg hlog, if_neg (by simp), if_pos hv]
      rfl
    · exact .inl ⟨rfl, fun hu => hv hu.version⟩
  have hcr : create L fIn fOut o =
      (HalfConn.create L fIn o.crypter.ciphersuite o.crypter.inSequence o.crypter.inSecret).bind
        fun
        | .error e => .ok (.error e)
        | .ok inC =>
          (HalfConn.create L fOut o.crypter.ciphersuite o.crypter.outSequence
            o.crypter.outSecret).bind fun
          | .error e => .ok (.error e)
          | .ok outC =>
            let c : Record.Conn :=
              { connectionId := o.crypter.connectionId, url := o.crypter.url,
                localIdentity := o.crypter.localIdentity, inC := inC, outC := outC,
                closeNotify := false, handler := .init, phase := .notReceived,
                expecting := false, hasFactory := o.crypter.hasFactory, sent := [] }
            .ok (.ok ⟨c, kMaxPlaintext + c.recordOverhead, 0, [], []⟩) := by
    unfold create Record.create
    rw [if_neg hc, if_neg hu1, if_neg hlog, if_neg (by simp), if_neg hv]
    cases HalfConn.create L fIn o.crypter.ciphersuite o.crypter.inSequence o.crypter.inSecret with
    | error u => rfl
    | ok x =>
      cases x with
      | error e => rfl
      | ok inC =>
        cases HalfConn.create L fOut o.crypter.ciphersuite o.crypter.outSequence
            o.crypter.outSecret with
        | error u => rfl
        | ok y => cases y <;> rfl
  simp only [Bool.not_eq_true, Bool.or_eq_false_iff, Bool.not_eq_false'] at hc
  by_cases hi : ∃ s, Spec.suite o.crypter.ciphersuite = some s ∧
      o.crypter.inSecret.length = s.hash.digestSize
  case neg =>
    refine key (x := .ok (.error .invalidArgument)) ?_ ?_
    · rw [hcr, i1 (fun s h1 h2 => hi ⟨s, h1, h2⟩)]
      rfl
    · refine .inl ⟨rfl, fun hu => hi ?_⟩
      obtain ⟨su, a, b, _⟩ := hu.secrets
      exact ⟨su, a, b⟩
  obtain ⟨su, hs, hl⟩ := hi
  by_cases hf : Spec.LibraryFails fIn
  · refine key (x := .ok (.error .internal)) ?_ (.inr (.inl ⟨rfl, .inl hf⟩))
    rw [hcr, (i2 su hs hl).1 hf]
    rfl
  obtain ⟨inC, hin⟩ := (i2 su hs hl).2 hf
  by_cases ho : o.crypter.outSecret.length = su.hash.digestSize
  case neg =>
    refine key (x := .ok (.error .invalidArgument)) ?_ ?_
    · rw [hcr, hin, o1 (fun s h1 h2 => ho (by rw [hs] at h1; cases h1; exact h2))]
      rfl
    · refine .inl ⟨rfl, fun hu => ho ?_⟩
      obtain ⟨su', a, _, b⟩ := hu.secrets
      rw [hs] at a
      cases a
      exact b
  by_cases hfo : Spec.LibraryFails fOut
  · refine key (x := .ok (.error .internal)) ?_ (.inr (.inl ⟨rfl, .inr hfo⟩))
    rw [hcr, hin]
    simp only [Except.bind]
    rw [(o2 su hs ho).1 hfo]
  obtain ⟨outC, hout⟩ := (o2 su hs ho).2 hfo
  refine key rfl (.inr (.inr ⟨?_, ?_, hf, hfo⟩))
  · rw [hcr, hin]
    simp only [Except.bind]
    rw [hout]
    exact ⟨_, rfl⟩
  · exact ⟨hc.1.1, hc.1.2, hc.2, by simpa using hu1, by simpa using hv, su, hs, hl, ho⟩

/-- Witnesses: usable and unusable arguments, a failing library; and both at once, where the
first thing found is reported. -/
example : (∃ s, create Lib.toy .none .none leftO = .ok (.ok s)) ∧ Spec.GoodArguments leftO ∧
    create Lib.toy .none .none { leftO with hasAllocator := false } =
      .ok (.error .invalidArgument) ∧
    Spec.LibraryFails { KeyFault.none with create := true } ∧
    create Lib.toy .none { KeyFault.none with create := true } leftO = .ok (.error .internal) ∧
    create Lib.toy { KeyFault.none with create := true } .none
      { leftO with crypter := { leftO.crypter with outSecret := [] } } = .ok (.error .internal) :=
  ⟨⟨_, rfl⟩, ⟨rfl, rfl, rfl, by decide, rfl, _, rfl, by decide, by decide⟩, rfl,
    .inr (.inr rfl), rfl, rfl⟩

/-- The same for a connection without a frame protector: it needs a ticket sender, which a frame
protector always gives it, and no allocator. -/
theorem C97_connection_creation (L : Lib) (fIn fOut : KeyFault) (a : Record.CreateArgs) :
    let good := Spec.GoodArguments ⟨a, true, true⟩ ∧ a.hasSender = true
    (Record.create L fIn fOut a = .ok (.error .invalidArgument) ∧ ¬ good ∨
      Record.create L fIn fOut a = .ok (.error .internal) ∧
        (Spec.LibraryFails fIn ∨ Spec.LibraryFails fOut) ∨
      (∃ c, Record.create L fIn fOut a = .ok (.ok c)) ∧ good ∧
        ¬ Spec.LibraryFails fIn ∧ ¬ Spec.LibraryFails fOut) ∧
    (good → Spec.LibraryFails fIn ∨ Spec.LibraryFails fOut →
      Record.create L fIn fOut a = .ok (.error .internal)) := by
  intro good
  by_cases hb : a.hasSender = true ∧ a.hasLogger = true
  case neg =>
    have : Record.create L fIn fOut a = .ok (.error .invalidArgument) := by
      unfold Record.create
      split
      · rfl
      split
      · rfl
      split
      · rfl
      next h1 h2 => simp at h1 h2; exact absurd ⟨h2, h1⟩ hb
    exact ⟨.inl ⟨this, fun h => hb ⟨h.2, h.1.logger⟩⟩, fun h => absurd ⟨h.2, h.1.logger⟩ hb⟩
  obtain ⟨hs, hl⟩ := hb
  obtain ⟨p1, p2⟩ := C97_protector_creation L fIn fOut ⟨a, true, true⟩
  have ha : ({ a with hasSender := true } : Record.CreateArgs) = a := by cases a; cases hs; rfl
  have hgood : good ↔ Spec.GoodArguments ⟨a, true, true⟩ := ⟨fun h => h.1, fun h => ⟨h, hs⟩⟩
  have hc : create L fIn fOut ⟨a, true, true⟩ = (Record.create L fIn fOut a).bind fun
      | .error e => .ok (.error e)
      | .ok c => .ok (.ok ⟨c, kMaxPlaintext + c.recordOverhead, 0, [], []⟩) := by
    unfold create
    rw [if_neg (by simp [hl]), ha]
    cases Record.create L fIn fOut a with
    | error _ => rfl
    | ok x => cases x <;> rfl
  have herr : ∀ e, create L fIn fOut ⟨a, true, true⟩ = .ok (.error e) →
      Record.create L fIn fOut a = .ok (.error e) := by
    intro e h
    rw [hc] at h
    cases hx : Record.create L fIn fOut a with
    | error u => rw [hx] at h; cases h
    | ok x =>
      cases x with
      | error e' => rw [hx] at h; cases h; rfl
      | ok c => rw [hx] at h; cases h
  have hok : ∀ s, create L fIn fOut ⟨a, true, true⟩ = .ok (.ok s) →
      ∃ c, Record.create L fIn fOut a = .ok (.ok c) := by
    intro s h
    rw [hc] at h
    cases hx : Record.create L fIn fOut a with
    | error u => rw [hx] at h; cases h
    | ok x =>
      cases x with
      | error e' => rw [hx] at h; cases h
      | ok c => exact ⟨c, rfl⟩
  rw [hgood]
  refine ⟨?_, fun h1 h2 => herr _ (p2 h1 h2)⟩
  rcases p1 with ⟨h, hn⟩ | ⟨h, hf⟩ | ⟨⟨s, h⟩, hr⟩
  · exact .inl ⟨herr _ h, hn⟩
  · exact .inr (.inl ⟨herr _ h, hf⟩)
  · exact .inr (.inr ⟨hok s h, hr⟩)

/-- Witnesses: usable arguments, and the same without a ticket sender. -/
example : (∃ c, Record.create Lib.toy .none .none Record.Demo.leftArgs = .ok (.ok c)) ∧
    Record.create Lib.toy .none .none { Record.Demo.leftArgs with hasSender := false } =
      .ok (.error .invalidArgument) := ⟨⟨_, rfl⟩, rfl⟩

end S2A.Frame

namespace S2A.Proxy
open Proto Util
open Spec (requests results)
open Demo

/-- Every history of calls, every call of `GetBytesForS2A`.  If there is nothing to send (no
bytes from the peer after the first request; bytes given to a client before it; a configuration
without wire form), it reports FAILED_PRECONDITION and asks for no token.  Otherwise it reports
INTERNAL if the request cannot be serialised, and else returns a request, with no byte
consumed. -/
theorem C97_status_for_s2a (L : Lib) (o : Options) (opts : TlsOptions) (s : State)
    (evs : List Event) (h : Reach L o s evs) (ho : o.options = some opts) (e : Env)
    (bytes : Option Bytes) :
    (Spec.NothingToSend o.isClient opts evs (bytes.getD []) →
      getBytesForS2A e s bytes = (s, ⟨.failedPrecondition, 0, none⟩, [])) ∧
    (¬ Spec.NothingToSend o.isClient opts evs (bytes.getD []) →
      (e.serializeFails = true → (getBytesForS2A e s bytes).2.1 = ⟨.internal, 0, none⟩) ∧
      (e.serializeFails = false → ∃ request,
        (getBytesForS2A e s bytes).2.1 = ⟨.ok, 0, some request⟩)) := by
  have hi := h.inv
  have hso : s.options = opts := by
    have := hi.config.options
    rw [ho] at this
    exact (Option.some.inj this).symm
  have hplan : plan e s bytes = none ↔
      Spec.NothingToSend o.isClient opts evs (bytes.getD []) := by
    have hcl := clientOf_isSome e s
    have hsv := serverOf_isSome e s bytes
    rw [hso] at hcl hsv
    unfold plan Spec.NothingToSend
    rw [hi.config.isClient]
    by_cases hq : requests evs = []
    · rw [if_pos (hi.first.2 hq)]
      cases hc : o.isClient with
      | true =>
        by_cases hb : bytes.getD [] = []
        · simp [hq, hb, ← hcl]
        · simp [hq, hb]
      | false => simp [hq, ← hsv]
    · have : ¬ s.first = true := fun h => hq (hi.first.1 h)
      rw [if_neg this]
      by_cases hb : bytes.getD [] = [] <;> simp [hq, hb]
  rw [← hplan, getBytesForS2A_eq]
  cases hp : plan e s bytes with
  | none => exact ⟨fun _ => rfl, fun h => absurd rfl h⟩
  | some k =>
    refine ⟨fun h => (by cases h), fun _ => ⟨fun hf => ?_, fun hf => ?_⟩⟩
    · simp only [hf, if_true]
      rfl
    · simp only [hf, if_neg Bool.false_ne_true]
      exact ⟨_, rfl⟩

/-- Witnesses of both cases, before and after the first request. -/
example : Spec.NothingToSend true opts [] [9] ∧ ¬ Spec.NothingToSend true opts [] [] ∧
    requests (hist client [.forS2A env none]).2 ≠ [] ∧
    (getBytesForS2A env (made client) (some [9])).2.1.code = .failedPrecondition ∧
    (getBytesForS2A env (made client) none).2.1.code = .ok ∧
    (getBytesForS2A { env with serializeFails := true } (made client) none).2.1.code = .internal ∧
    (getBytesForS2A env (hist client [.forS2A env none]).1 none).2.1.code =
      .failedPrecondition := by
  refine ⟨.inr (.inl ⟨rfl, rfl, .inl (by decide)⟩), ?_, by decide +kernel, by decide +kernel,
    by decide +kernel, by decide +kernel, by decide +kernel⟩
  have hr : Reach Lib.toy client (made client) [] := .start rfl
  intro hn
  have := ((C97_status_for_s2a Lib.toy client opts _ [] hr rfl env none).1 hn)
  have h2 : (getBytesForS2A env (made client) none).2.1.code = .ok := by decide +kernel
  rw [this] at h2
  cases h2

/-- Every call of `GetBytesForPeer`, in every state.
* No bytes: FAILED_PRECONDITION.
* Bytes that are no response, or a response whose status is missing or not OK: INTERNAL.
* A response with status OK without a result: OK, with the number of bytes consumed and the
  bytes for the peer as in the response.
* A response with status OK and a result: INVALID_ARGUMENT if the result has no session state;
  FAILED_PRECONDITION if the TLS version or the ciphersuite is not known; INTERNAL if both are
  known and the local identity is missing; and else OK, as without a result. -/
theorem C97_status_for_peer (dec : Bytes → Option SessionResp) (s : State)
    (bytes : Option Bytes) (st : Status) (h : (getBytesForPeer dec s bytes).2 = st) :
    (bytes.getD [] = [] → st = ⟨.failedPrecondition, 0, none⟩) ∧
    (bytes.getD [] ≠ [] → dec (bytes.getD []) = none → st = ⟨.internal, 0, none⟩) ∧
    (∀ resp, bytes.getD [] ≠ [] → dec (bytes.getD []) = some resp →
      (¬ Spec.Good resp → st = ⟨.internal, 0, none⟩) ∧
      (Spec.Good resp →
        (resp.result = none → st = ⟨.ok, resp.bytesConsumed, some resp.outFrames⟩) ∧
        (∀ r, resp.result = some r →
          (r.state = none → st = ⟨.invalidArgument, 0, none⟩) ∧
          (∀ state, r.state = some state →
            ((∀ v, Spec.wireTlsVersion v ≠ some state.tlsVersion) ∨
              (∀ cs, Spec.wireCiphersuite cs ≠ some state.ciphersuite) →
              st = ⟨.failedPrecondition, 0, none⟩) ∧
            (∀ v cs, Spec.wireTlsVersion v = some state.tlsVersion →
              Spec.wireCiphersuite cs = some state.ciphersuite →
              (r.localIdentity = none → st = ⟨.internal, 0, none⟩) ∧
              (r.localIdentity ≠ none →
                st = ⟨.ok, resp.bytesConsumed, some resp.outFrames⟩)))))) := by
  subst h
  refine ⟨fun hb => ?_, fun hb hd => ?_, fun resp hb hd => ⟨fun hg => ?_, fun hg => ⟨?_, ?_⟩⟩⟩
  · unfold getBytesForPeer
    rw [if_pos (by simpa using hb)]
    rfl
  · unfold getBytesForPeer
    rw [if_neg (by simpa using hb), hd]
    rfl
  · unfold getBytesForPeer
    rw [if_neg (by simpa using hb), hd]
    simp only
    cases hs : resp.status with
    | none => rfl
    | some x =>
      simp only
      rw [if_pos (fun h0 => hg ⟨x, hs, h0⟩)]
      rfl
  all_goals obtain ⟨x, hx, h0⟩ := hg
  · intro hr
    unfold getBytesForPeer
    rw [if_neg (by simpa using hb), hd]
    simp only [hx]
    rw [if_neg (by simp [h0]), hr]
  · intro r hr
    have e : (getBytesForPeer dec s bytes).2 =
        match (handleResult { (match resp.localIdentity with
            | some i => { s with selected := some (identityFromProto (some i)) }
            | none => s) with finished := true } r).2 with
        | some c => ⟨c, 0, none⟩
        | none => ⟨.ok, resp.bytesConsumed, some resp.outFrames⟩ := by
      unfold getBytesForPeer
      rw [if_neg (by simpa using hb), hd]
      simp only [hx]
      rw [if_neg (by simp [h0]), hr]
      simp only
      generalize handleResult _ r = q
      obtain ⟨s', c⟩ := q
      cases c <;> rfl
    rw [e]
    generalize ({ (match resp.localIdentity with
            | some i => { s with selected := some (identityFromProto (some i)) }
            | none => s) with finished := true } : State) = q
    refine ⟨fun hst => ?_, fun state hst => ⟨fun hun => ?_, fun v cs hv hcs => ⟨fun hl => ?_, fun hl => ?_⟩⟩⟩
    · unfold handleResult
      rw [hst]
    · have hc : (handleResult q r).2 = some .failedPrecondition := by
        unfold handleResult
        rw [hst]
        simp only
        cases hv : tlsVersionFromProto state.tlsVersion with
        | error c =>
          unfold tlsVersionFromProto at hv
          split at hv <;> cases hv
          rfl
        | ok v =>
          simp only
          cases hcs : ciphersuiteFromProto state.ciphersuite with
          | error c =>
            unfold ciphersuiteFromProto at hcs
            split at hcs <;> cases hcs
            rfl
          | ok cs =>
            exfalso
            rcases hun with hun | hun
            · exact hun v (tlsVersionFromProto_ok.1 hv)
            · exact hun cs (ciphersuiteFromProto_ok.1 hcs)
      rw [hc]
    · have hc : (handleResult q r).2 = some .internal := by
        unfold handleResult
        rw [hst]
        simp only
        rw [tlsVersionFromProto_ok.2 hv]
        simp only
        rw [ciphersuiteFromProto_ok.2 hcs]
        simp only
        rw [hl]
      rw [hc]
    · have hc : (handleResult q r).2 = none := by
        unfold handleResult
        rw [hst]
        simp only
        rw [tlsVersionFromProto_ok.2 hv]
        simp only
        rw [ciphersuiteFromProto_ok.2 hcs]
        simp only
        cases hl2 : r.localIdentity with
        | none => exact absurd hl2 hl
        | some li => rfl
      rw [hc]

/-- Witnesses: one response for each case. -/
example :
    (getBytesForPeer (fun _ => none) (made client) none).2.code = .failedPrecondition ∧
    (getBytesForPeer (fun _ => none) (made client) (some [1])).2.code = .internal ∧
    (getBytesForPeer (fun _ => some { done with status := none }) (made client) (some [1])).2.code =
      .internal ∧
    (getBytesForPeer (fun _ => some frames) (made client) (some [1])).2.code = .ok ∧
    (getBytesForPeer (fun _ => some done) (made client) (some [1])).2.code = .ok ∧
    (getBytesForPeer (fun _ => some { done with result := some { result with state := none } })
      (made client) (some [1])).2.code = .invalidArgument ∧
    (getBytesForPeer (fun _ => some { done with
        result := some { result with state := some { state with tlsVersion := 7 } } })
      (made client) (some [1])).2.code = .failedPrecondition ∧
    (getBytesForPeer (fun _ => some { done with
        result := some { result with localIdentity := none } })
      (made client) (some [1])).2.code = .internal := by
  decide +kernel

/-- Every history of calls: before the first result of a handshake, `CreateFrameProtector` and
`GetS2AContext` report FAILED_PRECONDITION and change nothing.  After it `CreateFrameProtector`
never does, and `GetS2AContext` succeeds. -/
theorem C97_before_and_after_the_result (L : Lib) (o : Options) (s : State)
    (evs : List Event) (h : Reach L o s evs) (fIn fOut : KeyFault) :
    (results evs = [] →
      createFrameProtector L fIn fOut s = .ok (s, .error .failedPrecondition) ∧
      getS2AContext s = (s, .error .failedPrecondition)) ∧
    (results evs ≠ [] →
      (∀ s' c, createFrameProtector L fIn fOut s = .ok (s', .error c) →
        c = .invalidArgument ∨
        c = .internal ∧ (Spec.LibraryFails fIn ∨ Spec.LibraryFails fOut)) ∧
      ∃ c, (getS2AContext s).2 = .ok c) := by
  have hfin := finished_iff_results h
  constructor
  · intro hn
    have : s.finished = false := by
      rw [← Bool.not_eq_true, hfin]
      exact fun h => h hn
    unfold createFrameProtector getS2AContext
    rw [this]
    exact ⟨rfl, rfl⟩
  · intro hn
    refine ⟨fun s' c hc => ?_, s.context, ?_⟩
    · unfold createFrameProtector at hc
      rw [hfin.2 hn] at hc
      simp only [Bool.not_true, if_neg Bool.false_ne_true] at hc
      cases hr : s.result with
      | none => rw [hr] at hc; cases hc
      | some r =>
        rw [hr] at hc
        simp only [HalfConn.exec_bind_eq_ok] at hc
        obtain ⟨p, hp, h2⟩ := hc
        cases h2
        rcases (Frame.C97_protector_creation L fIn fOut (frameOptions s r)).1 with
          ⟨h, _⟩ | ⟨h, hf⟩ | ⟨⟨x, h⟩, _⟩
        · rw [h] at hp; cases hp; exact .inl rfl
        · rw [h] at hp; cases hp; exact .inr ⟨rfl, hf⟩
        · rw [h] at hp; cases hp
    · unfold getS2AContext
      rw [hfin.2 hn]
      rfl

/-- Witnesses: a history without and one with a result, and a result with which
`CreateFrameProtector` reports INVALID_ARGUMENT. -/
example : results (hist client [.forS2A env none]).2 = [] ∧
    results (hist client [doneWith result]).2 ≠ [] ∧
    runs client [.forS2A env none] = true ∧ runs client [doneWith result] = true ∧
    (match createFrameProtector Lib.toy .none .none (hist client
        [doneWith { result with state := some { state with ciphersuite := 9 } }]).1 with
      | .ok (_, .error c) => decide (c = .invalidArgument)
      | _ => false) = true := by
  decide +kernel

end S2A.Proxy
