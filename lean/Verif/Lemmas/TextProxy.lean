import Verif.Lemmas.TextSays
import Verif.Lemmas.Proxy
/-
The texts of the proxy.
-/
namespace S2A.Proxy
open Spec (ProxyText ProxyNotice proxySentences ProxyFailed NoStatus IsCreate DetailsOf)
open HalfConn (exec_bind_eq_ok)
open S2A.Proto S2A.Util

/-- What is shown of the texts of a call. -/
structure Fine (why errs details : String → Prop) (failed : Prop) (said : Said) : Prop where
  log : ∀ t ∈ said.log, ProxyText why errs details t
  message : ProxyText why errs details said.message
  success : ¬ failed → said.message = "" ∧ ∀ t ∈ said.log, ProxyNotice why t
  failure : failed → said.log ≠ [] ∧ said.message ≠ ""

variable {why errs details : String → Prop}

theorem Fine.fixed (t : String) (ht : t ∈ proxySentences) (hne : t ≠ "") {failed : Prop}
    (hf : failed) : Fine why errs details failed ⟨[t], t⟩ where
  log := by
    intro x hx
    rw [List.mem_singleton.1 hx]
    exact .sentence t ht
  message := .sentence t ht
  success := fun h => absurd hf h
  failure := fun _ => ⟨by simp, hne⟩

theorem ProxyNotice.text {t : String} (h : ProxyNotice why t) : ProxyText why errs details t := by
  cases h with
  | noManager => exact .sentence _ (by simp [proxySentences])
  | emptyIdentity => exact .sentence _ (by simp [proxySentences])
  | noPeerIdentity => exact .sentence _ (by simp [proxySentences])
  | token t h => exact .token t h
  | defaultToken t h => exact .defaultToken t h

theorem Fine.notices {failed : Prop} (hf : ¬ failed) {log : List String}
    (h : ∀ t ∈ log, ProxyNotice why t) : Fine why errs details failed ⟨log, ""⟩ where
  log := fun t ht => ProxyNotice.text (h t ht)
  message := .sentence _ (by simp [proxySentences])
  success := fun _ => ⟨rfl, h⟩
  failure := fun h => absurd h hf

theorem Fine.after {failed : Prop} (hf : failed) {log : List String}
    (h : ∀ t ∈ log, ProxyNotice why t) {e : String} (he : e ∈ proxySentences) (hne : e ≠ "") :
    Fine why errs details failed ⟨log ++ [e], e⟩ where
  log := by
    intro t ht
    rcases List.mem_append.1 ht with ht | ht
    · exact ProxyNotice.text (h t ht)
    · rw [List.mem_singleton.1 ht]
      exact .sentence _ he
  message := .sentence _ he
  success := fun h => absurd hf h
  failure := fun _ => ⟨by simp, hne⟩

theorem Fine.parse {failed : Prop} (hf : failed) {t m : String} (ht : t ∈ proxySentences)
    (hm : m ∈ proxySentences) (hne : m ≠ "") : Fine why errs details failed ⟨[t], m⟩ where
  log := by
    intro x hx
    rw [List.mem_singleton.1 hx]
    exact .sentence t ht
  message := .sentence m hm
  success := fun h => absurd hf h
  failure := fun _ => ⟨by simp, hne⟩

theorem askedLog_notice {w : Nat → String} (hw : ∀ i, why (w i)) (n : Nat) (qs : Asked) :
    ∀ t ∈ askedLog w n qs, ProxyNotice why t := by
  induction qs generalizing n with
  | nil => intro t ht; cases ht
  | cons q qs ih =>
    obtain ⟨q, a⟩ := q
    intro t ht
    cases a with
    | ok b => exact ih (n + 1) t (by cases q <;> exact ht)
    | error c =>
      cases q with
      | none =>
        rcases List.mem_cons.1 ht with rfl | ht
        · exact .defaultToken _ (hw n)
        · exact ih (n + 1) t ht
      | some i =>
        rcases List.mem_cons.1 ht with rfl | ht
        · exact .token _ (hw n)
        · exact ih (n + 1) t ht

theorem populateLog_notice {w : Nat → String} (hw : ∀ i, why (w i)) (e : Env) (s : State) :
    ∀ t ∈ populateLog w e s, ProxyNotice why t := by
  unfold populateLog
  split
  · intro t ht
    rw [List.mem_singleton.1 ht]
    exact .noManager
  · exact askedLog_notice hw _ _

theorem attachLog_notice (tokens : List (Identity × Bytes)) :
    ∀ t ∈ attachLog tokens, ProxyNotice why t := by
  intro t ht
  obtain ⟨x, _, h⟩ := List.mem_flatMap.1 ht
  cases hx : x.1.type <;> rw [hx] at h <;> simp at h
  subst h
  exact .emptyIdentity

theorem finishRequestT_fine {w : Nat → String} (hw : ∀ i, why (w i)) (e : Env) (s : State)
    (kind : ReqKind) (error : String) (he : error ∈ proxySentences) (hne : error ≠ "") :
    Fine why errs details ((finishRequestT w e s kind error).1.2.1.code ≠ .ok)
      (finishRequestT w e s kind error).2 := by
  have hlog : ∀ t ∈ populateLog w e s ++ attachLog (e.orderTokens (populate e s).1.cache),
      ProxyNotice why t := by
    intro t ht
    rcases List.mem_append.1 ht with ht | ht
    · exact populateLog_notice hw e s t ht
    · exact attachLog_notice _ t ht
  unfold finishRequestT
  simp only
  by_cases hf : e.serializeFails = true
  · rw [if_pos hf]
    exact .after (by simp [Status.fail]) hlog he hne
  · rw [if_neg hf]
    exact .notices (by simp) hlog

theorem clientStart_code {e : Env} {s : State} {c : StatusCode} (h : clientStart e s = .error c) :
    c ≠ .ok := by
  rw [clientStart_eq] at h
  cases hx : clientOf e s <;> rw [hx] at h <;> cases h
  simp

theorem serverStart_code {e : Env} {s : State} {bytes : Option Bytes} {c : StatusCode}
    (h : serverStart e s bytes = .error c) : c ≠ .ok := by
  rw [serverStart_eq] at h
  cases hx : serverOf e s bytes <;> rw [hx] at h <;> cases h
  simp

theorem withText_bind_error {α β : Type} {m : String} {x : Except StatusCode α}
    {g : α → Except (StatusCode × String) β} {c : StatusCode} {t : String}
    (h : (withText m x >>= g) = .error (c, t)) : t = m ∨ ∃ a, g a = .error (c, t) := by
  cases x with
  | error e => cases h; exact Or.inl rfl
  | ok a => exact Or.inr ⟨a, h⟩

theorem clientStartT_text {e : Env} {s : State} {c : StatusCode} {m : String}
    (h : clientStartT e s = .error (c, m)) : m ∈ proxySentences ∧ m ≠ "" := by
  unfold clientStartT at h
  rcases withText_bind_error h with rfl | ⟨_, h⟩
  · exact ⟨by simp [proxySentences], by simp⟩
  rcases withText_bind_error h with rfl | ⟨_, h⟩
  · exact ⟨by simp [proxySentences], by simp⟩
  rcases withText_bind_error h with rfl | ⟨_, h⟩
  · exact ⟨by simp [proxySentences], by simp⟩
  rcases withText_bind_error h with rfl | ⟨_, h⟩
  · exact ⟨by simp [proxySentences], by simp⟩
  split at h
  · cases h
    exact ⟨by simp [proxySentences], by simp⟩
  rcases withText_bind_error h with rfl | ⟨_, h⟩
  · exact ⟨by simp [proxySentences], by simp⟩
  · cases h

theorem serverStartT_text {e : Env} {s : State} {bytes : Option Bytes} {c : StatusCode}
    {m : String} (h : serverStartT e s bytes = .error (c, m)) :
    m ∈ proxySentences ∧ m ≠ "" := by
  unfold serverStartT at h
  rcases withText_bind_error h with rfl | ⟨_, h⟩
  · exact ⟨by simp [proxySentences], by simp⟩
  rcases withText_bind_error h with rfl | ⟨_, h⟩
  · exact ⟨by simp [proxySentences], by simp⟩
  rcases withText_bind_error h with rfl | ⟨_, h⟩
  · exact ⟨by simp [proxySentences], by simp⟩
  rcases withText_bind_error h with rfl | ⟨_, h⟩
  · exact ⟨by simp [proxySentences], by simp⟩
  · cases h

theorem getClientStartT_fine {w : Nat → String} (hw : ∀ i, why (w i)) (e : Env) (s : State) :
    Fine why errs details ((getClientStartT w e s).1.2.1.code ≠ .ok) (getClientStartT w e s).2 := by
  unfold getClientStartT
  cases h : clientStartT e s with
  | error x =>
    obtain ⟨c, m⟩ := x
    have hc : clientStart e s = .error c := by rw [← clientStartT_quiet, h]; rfl
    have ht := clientStartT_text h
    exact .fixed m ht.1 ht.2 (clientStart_code hc)
  | ok m => exact finishRequestT_fine hw e s _ _ (by simp [proxySentences]) (by simp)

theorem getServerStartT_fine {w : Nat → String} (hw : ∀ i, why (w i)) (e : Env) (s : State)
    (bytes : Option Bytes) :
    Fine why errs details ((getServerStartT w e s bytes).1.2.1.code ≠ .ok)
      (getServerStartT w e s bytes).2 := by
  unfold getServerStartT
  cases h : serverStartT e s bytes with
  | error x =>
    obtain ⟨c, m⟩ := x
    have hc : serverStart e s bytes = .error c := by rw [← serverStartT_quiet, h]; rfl
    have ht := serverStartT_text h
    exact .fixed m ht.1 ht.2 (serverStart_code hc)
  | ok m => exact finishRequestT_fine hw e s _ _ (by simp [proxySentences]) (by simp)

theorem getBytesForS2AT_fine {w : Nat → String} (hw : ∀ i, why (w i)) (e : Env) (s : State)
    (bytes : Option Bytes) :
    Fine why errs details ((getBytesForS2AT w e s bytes).1.2.1.code ≠ .ok)
      (getBytesForS2AT w e s bytes).2 := by
  unfold getBytesForS2AT
  by_cases h1 : s.first = true
  · rw [if_pos h1]
    by_cases h2 : (s.isClient && (bytes.getD []) != []) = true
    · rw [if_pos h2]
      exact .fixed _ (by simp [proxySentences]) (by simp) (by simp [Status.fail])
    · rw [if_neg h2]
      by_cases h3 : s.isClient = true
      · simp only [if_pos h3]
        exact getClientStartT_fine hw e s
      · simp only [if_neg h3]
        exact getServerStartT_fine hw e s bytes
  · rw [if_neg h1]
    by_cases h2 : (bytes.getD [] == []) = true
    · rw [if_pos h2]
      exact .fixed _ (by simp [proxySentences]) (by simp) (by simp [Status.fail])
    · rw [if_neg h2]
      exact finishRequestT_fine hw e s _ _ (by simp [proxySentences]) (by simp)

theorem tlsVersionFromProto_code {n : Nat} {c : StatusCode}
    (h : tlsVersionFromProto n = .error c) : c ≠ .ok := by
  unfold tlsVersionFromProto at h
  split at h <;> cases h
  simp

theorem ciphersuiteFromProto_code {n : Nat} {c : StatusCode}
    (h : ciphersuiteFromProto n = .error c) : c ≠ .ok := by
  unfold ciphersuiteFromProto at h
  split at h <;> cases h
  simp

theorem handleResultT_fine (s : State) (r : SessionResult) :
    ((handleResultT s r).1.2 ≠ some .ok) ∧
    Fine why errs details ((handleResultT s r).1.2 ≠ none) (handleResultT s r).2 := by
  unfold handleResultT
  cases r.state with
  | none => exact ⟨by simp, .fixed _ (by simp [proxySentences]) (by simp) (by simp)⟩
  | some st =>
    simp only
    cases hv : tlsVersionFromProto st.tlsVersion with
    | error c =>
      have := tlsVersionFromProto_code hv
      exact ⟨by simpa using this, .parse (by simp) (by decide) (by decide) (by simp)⟩
    | ok v =>
      simp only
      cases hc : ciphersuiteFromProto st.ciphersuite with
      | error c =>
        have := ciphersuiteFromProto_code hc
        exact ⟨by simpa using this, .parse (by simp) (by decide) (by decide) (by simp)⟩
      | ok cs =>
        simp only
        have hlog : ∀ t ∈ (match r.peerIdentity with
          | none => ["No peer identity set in |s2a_proto_SessionResult|."]
          | some _ => []), ProxyNotice why t := by
          cases r.peerIdentity with
          | none =>
            intro t ht
            rw [List.mem_singleton.1 ht]
            exact .noPeerIdentity
          | some _ => intro t ht; cases ht
        cases r.localIdentity with
        | none => exact ⟨by simp, .after (by simp) hlog (by simp [proxySentences]) (by simp)⟩
        | some li => exact ⟨by simp, .notices (by simp) hlog⟩

theorem getBytesForPeerT_fine (dec : Bytes → Option SessionResp) (s : State)
    (bytes : Option Bytes) :
    (NoStatus (.forPeer (response dec bytes) (getBytesForPeerT dec s bytes).1.2) →
      (getBytesForPeerT dec s bytes).1.2.code ≠ .ok ∧
      (getBytesForPeerT dec s bytes).2 = ⟨[""], ""⟩) ∧
    (¬ NoStatus (.forPeer (response dec bytes) (getBytesForPeerT dec s bytes).1.2) →
      Fine why errs (DetailsOf (.forPeer (response dec bytes) (getBytesForPeerT dec s bytes).1.2))
        ((getBytesForPeerT dec s bytes).1.2.code ≠ .ok) (getBytesForPeerT dec s bytes).2) := by
  unfold getBytesForPeerT response
  by_cases h1 : (bytes.getD [] == []) = true
  · rw [if_pos h1, if_pos h1]
    exact ⟨fun h => h.elim,
      fun _ => .fixed _ (by simp [proxySentences]) (by simp) (by simp [Status.fail])⟩
  rw [if_neg h1, if_neg h1]
  cases dec (bytes.getD []) with
  | none =>
    exact ⟨fun h => h.elim,
      fun _ => .fixed _ (by simp [proxySentences]) (by simp) (by simp [Status.fail])⟩
  | some resp =>
    simp only
    cases hs : resp.status with
    | none => exact ⟨fun _ => ⟨by simp [Status.fail], rfl⟩, fun h => absurd hs h⟩
    | some status =>
      simp only
      refine ⟨fun h => ?_, fun _ => ?_⟩
      · have : resp.status = none := h
        rw [hs] at this
        cases this
      by_cases hc : status.code ≠ 0
      · simp only [if_pos hc]
        have ht : ProxyText why errs (DetailsOf (.forPeer (some resp) (.fail .internal)))
            ("Error from the S2A: " ++ textOf status.details) :=
          .fromS2A _ ⟨status, hs, hc, rfl⟩
        refine ⟨?_, ht, fun h => absurd (by simp [Status.fail]) h, fun _ => ⟨by simp, ?_⟩⟩
        · intro t h
          rw [List.mem_singleton.1 h]
          exact ht
        · exact append_ne_empty _ _ (by simp)
      · simp only [if_neg hc]
        have fin : ∀ (q : State) (r : SessionResult), ∀ y : (State × Status) × Said,
            y = (match handleResultT q r with
              | ((s, some c), said) => ((s, .fail c), said)
              | ((s, none), said) =>
                ((s, ⟨.ok, resp.bytesConsumed, some resp.outFrames⟩), ⟨said.log, ""⟩)) →
            Fine why errs (DetailsOf (.forPeer (some resp) y.1.2)) (y.1.2.code ≠ .ok) y.2 := by
          intro q r y hy
          have hf := fun details => handleResultT_fine (why := why) (errs := errs) (details := details) q r
          generalize handleResultT q r = x at hf hy
          obtain ⟨⟨s', c⟩, said⟩ := x
          subst hy
          cases c with
          | none =>
            have h := (hf (fun _ => False)).2.success (by simp)
            exact .notices (by simp) h.2
          | some c =>
            have h := hf (DetailsOf (.forPeer (some resp) (.fail c)))
            have hc : c ≠ .ok := fun hh => h.1 (by rw [hh])
            exact ⟨h.2.log, h.2.message, fun h => absurd hc h, fun _ => h.2.failure (by simp)⟩
        cases resp.localIdentity <;> cases resp.result with
        | none => exact .notices (by simp) (by intro t ht; cases ht)
        | some r => exact fin _ r _ rfl

theorem createT_text {L : Lib} {fIn fOut : KeyFault} {x1 x2 : LibText} (h1 : errs x1.queue)
    (h2 : errs x2.queue) {s : State} {r : HsResult} {c : StatusCode} {m : String}
    (h : Frame.createT L fIn fOut x1 x2 (frameOptions s r) = .ok (.error (c, m))) :
    ProxyText why errs details m ∧ m ≠ "" := by
  unfold Frame.createT Record.createT at h
  rw [if_neg (by simp [frameOptions])] at h
  simp only [exec_bind_eq_ok] at h
  obtain ⟨y, hy, h⟩ := h
  cases y with
  | ok y => cases h
  | error y =>
    cases h
    split at hy
    · cases hy
      exact ⟨.sentence _ (by simp [proxySentences]), by simp⟩
    rw [if_neg (by simp [frameOptions]), if_neg (by simp)] at hy
    split at hy
    · cases hy
      exact ⟨.sentence _ (by simp [proxySentences]), by simp⟩
    simp only [exec_bind_eq_ok] at hy
    obtain ⟨z, hz, hy⟩ := hy
    cases z with
    | error z =>
      cases hy
      have hk := HalfConn.createT_says h1 hz
      exact ⟨.key _ hk, keyText_ne hk⟩
    | ok z =>
      simp only [exec_bind_eq_ok] at hy
      obtain ⟨z, hz, hy⟩ := hy
      cases z with
      | ok z => cases hy
      | error z =>
        cases hy
        have hk := HalfConn.createT_says h2 hz
        exact ⟨.key _ hk, keyText_ne hk⟩

/-- The texts of one call on a proxy. -/
theorem stepT_fine {L : Lib} {w : Nat → String} (hw : ∀ i, why (w i)) {xIn xOut : LibText}
    (h1 : errs xIn.queue) (h2 : errs xOut.queue) {s : State} {op : Op} {x : State × Event}
    {said : Said} (h : stepT L w xIn xOut s op = .ok (x, said)) :
    (NoStatus x.2 → ProxyFailed x.2 ∧ said = ⟨[""], ""⟩) ∧
    (IsCreate x.2 → ProxyFailed x.2 → s.finished = true →
      said.log = [] ∧ ProxyText why errs (DetailsOf x.2) said.message ∧ said.message ≠ "") ∧
    (¬ NoStatus x.2 → ¬ (IsCreate x.2 ∧ ProxyFailed x.2 ∧ s.finished = true) →
      Fine why errs (DetailsOf x.2) (ProxyFailed x.2) said) := by
  cases op with
  | forS2A e bytes =>
    cases h
    exact ⟨fun h => h.elim, fun h => h.elim, fun _ _ => getBytesForS2AT_fine hw e s bytes⟩
  | forPeer dec bytes =>
    cases h
    have := getBytesForPeerT_fine (why := why) (errs := errs) dec s bytes
    exact ⟨this.1, fun h => h.elim, fun h _ => this.2 h⟩
  | isFinished =>
    cases h
    exact ⟨fun h => h.elim, fun h => h.elim,
      fun _ _ => .notices (fun h => h) (by intro t ht; cases ht)⟩
  | getContext =>
    unfold stepT getS2AContextT at h
    by_cases hf : (!s.finished) = true
    · rw [if_pos hf] at h
      cases h
      refine ⟨fun h => h.elim, fun h => h.elim, fun _ _ => ?_⟩
      exact .fixed _ (by simp [proxySentences]) (by simp) ⟨_, rfl⟩
    · rw [if_neg hf] at h
      cases h
      refine ⟨fun h => h.elim, fun h => h.elim, fun _ _ => ?_⟩
      exact .notices (by simp [ProxyFailed]) (by intro t ht; cases ht)
  | createFrameProtector fIn fOut =>
    simp only [stepT, exec_bind_eq_ok] at h
    obtain ⟨y, hy, h⟩ := h
    cases h
    refine ⟨fun h => h.elim, ?_⟩
    unfold createFrameProtectorT at hy
    split at hy
    · next hf =>
      cases hy
      refine ⟨fun _ _ h => ?_, fun _ _ => ?_⟩
      · rw [h] at hf; cases hf
      · exact .fixed _ (by simp [proxySentences]) (by simp) ⟨_, rfl⟩
    · next hf =>
      split at hy
      · cases hy
      · simp only [exec_bind_eq_ok] at hy
        obtain ⟨z, hz, hy⟩ := hy
        cases z with
        | ok p =>
          cases hy
          refine ⟨fun _ h => ?_, fun _ _ => ?_⟩
          · obtain ⟨c, h⟩ := h; cases h
          · exact .notices (by simp [ProxyFailed]) (by intro t ht; cases ht)
        | error e =>
          obtain ⟨c, m⟩ := e
          cases hy
          refine ⟨fun _ _ _ => ⟨rfl, createT_text h1 h2 hz⟩, fun _ h => ?_⟩
          exact absurd ⟨trivial, ⟨_, rfl⟩, by simpa using hf⟩ h

end S2A.Proxy
