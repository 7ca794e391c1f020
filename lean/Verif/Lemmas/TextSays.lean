import Verif.Lemmas.Text
import Verif.Lemmas.TextCryptoSays
import Verif.Lemmas.FrameAdversary
import Verif.Spec.Text
/-
Every text is in the list; failures have texts.
-/
namespace S2A
open Spec (AeadText FrameText frameSentences framePrefixes ticketNotices)
open HalfConn (exec_bind_eq_ok)

/-- What is shown of the texts of a call: all are in the list; success has no message and only
notices; failure has a message and a line in the log. -/
structure Fine (errs : String → Prop) (ok : Prop) (said : Said) : Prop where
  log : ∀ t ∈ said.log, FrameText errs t
  message : FrameText errs said.message
  success : ok → said.message = "" ∧ ∀ t ∈ said.log, t ∈ ticketNotices
  failure : ¬ ok → said.log ≠ [] ∧ said.message ≠ ""

variable {errs : String → Prop}

/-- One fixed sentence, logged and returned. -/
theorem Fine.fixed (t : String) (ht : t ∈ frameSentences) (hne : t ≠ "") {ok : Prop}
    (hok : ¬ ok) : Fine errs ok ⟨[t], t⟩ where
  log := by
    intro x hx
    rw [List.mem_singleton.1 hx]
    exact .sentence t ht
  message := .sentence t ht
  success := fun h => absurd h hok
  failure := fun _ => ⟨by simp, hne⟩

theorem Fine.silent {ok : Prop} (hok : ok) : Fine errs ok ⟨[], ""⟩ where
  log := by intro x hx; cases hx
  message := .sentence _ (by simp [frameSentences])
  success := fun _ => ⟨rfl, by intro x hx; cases hx⟩
  failure := fun h => absurd hok h

theorem Fine.notices {ok : Prop} (hok : ok) {log : List String}
    (h : ∀ t ∈ log, t ∈ ticketNotices ∧ FrameText errs t) : Fine errs ok ⟨log, ""⟩ where
  log := fun t ht => (h t ht).2
  message := .sentence _ (by simp [frameSentences])
  success := fun _ => ⟨rfl, fun t ht => (h t ht).1⟩
  failure := fun h => absurd hok h

namespace Record

theorem convertStatus_ne_ok (s : StatusCode) (h : s ≠ .ok) : convertStatus s ≠ .ok := by
  cases s <;> simp_all [convertStatus]

theorem half_text {m : String} (h : m = HalfConn.unusable ∨ AeadText errs m) :
    FrameText errs m ∧ m ≠ "" := by
  rcases h with rfl | h
  · exact ⟨.sentence _ (by simp [frameSentences, HalfConn.unusable]), by simp [HalfConn.unusable]⟩
  · exact ⟨.aead _ h, aeadText_ne h⟩

theorem protectT_fine {L : Lib} {f : EvpFault} {w : String} (hw : errs w) {c : Conn}
    {rt : RecordType} {plaintext : List Iovec} {record : Iovec} {x : Conn × Result} {said : Said}
    (h : protectT L f w c rt plaintext record = .ok (x, said)) :
    Fine errs (x.2.code = .ok) said ∧ (x.2.code = .ok → said.log = []) := by
  unfold protectT at h
  simp only at h
  split at h
  · cases h
    exact ⟨.fixed _ (by simp [frameSentences]) (by simp) (by simp), by simp⟩
  split at h
  · cases h
    exact ⟨.fixed _ (by simp [frameSentences]) (by simp) (by simp), by simp⟩
  split at h
  · cases h
  simp only [exec_bind_eq_ok] at h
  obtain ⟨rb, _, h⟩ := h
  split at h
  · next e he =>
    have he' : convertStatus e ≠ .ok := by
      cases rt <;> simp [convertRecordType] at he
      subst he
      simp [convertStatus]
    cases h
    refine ⟨⟨?_, .sentence _ (by simp [frameSentences]), fun h => absurd h he',
      fun _ => ⟨by simp, by simp⟩⟩, fun h => absurd h he'⟩
    intro t ht
    rw [List.mem_singleton.1 ht]
    exact .sentence _ (by simp [frameSentences])
  · simp only [exec_bind_eq_ok] at h
    obtain ⟨rest, _, y, hy, h⟩ := h
    split at h
    · next hst =>
      have := convertStatus_ne_ok _ hst
      have hm := half_text ((HalfConn.encryptT_says hw hy).failure hst)
      cases h
      refine ⟨⟨?_, hm.1, fun h => absurd h this, fun _ => ⟨by simp, hm.2⟩⟩, fun h => absurd h this⟩
      intro t ht
      rw [List.mem_singleton.1 ht]
      exact .after _ _ (by simp [framePrefixes]) hm.1
    · cases h
      exact ⟨.silent rfl, fun _ => rfl⟩

theorem retrieveAndSendT_log {c c' : Conn} {log : List String}
    (h : retrieveAndSendT c = .ok (c', log)) :
    ∀ t ∈ log, t ∈ ticketNotices ∧ FrameText errs t := by
  unfold retrieveAndSendT at h
  simp only [exec_bind_eq_ok] at h
  obtain ⟨y, _, h⟩ := h
  split at h
  · cases h
    intro t ht
    rw [List.mem_singleton.1 ht]
    unfold storedTicketsMessage
    split
    · exact ⟨by simp [ticketNotices],
        .after _ _ (by simp [framePrefixes]) (.sentence _ (by simp [frameSentences]))⟩
    · exact ⟨by simp [ticketNotices],
        .after _ _ (by simp [framePrefixes]) (.sentence _ (by simp [frameSentences]))⟩
  · cases h
    intro t ht
    cases ht

theorem handleTicketsT_log {c c' : Conn} {r : Handler.Result} {log : List String}
    (h : handleTicketsT c r = .ok (c', log)) :
    ∀ t ∈ log, t ∈ ticketNotices ∧ FrameText errs t := by
  unfold handleTicketsT at h
  split at h
  · cases h
    split
    · intro t ht
      rw [List.mem_singleton.1 ht]
      exact ⟨by simp [ticketNotices], .sentence _ (by simp [frameSentences])⟩
    · intro t ht
      cases ht
  · simp only at h
    split at h
    · simp only [exec_bind_eq_ok] at h
      obtain ⟨y, h1, h⟩ := h
      cases h
      exact retrieveAndSendT_log (c' := y.1) h1
    · cases h
      intro t ht
      cases ht

theorem processMessage_text (h : Handler) :
    FrameText errs (processMessage h) ∧ processMessage h ≠ "" := by
  unfold processMessage
  split
  · split
    · exact ⟨.sentence _ (by simp [frameSentences]), by simp⟩
    · exact ⟨.sentence _ (by simp [frameSentences]), by simp⟩
  · exact ⟨.sentence _ (by simp [frameSentences]), by simp⟩

theorem handleResultT_says {L : Lib} {f : KeyFault} {msg : String} {c : Conn}
    {r : Except StatusCode Handler.Result} {x : Conn × StatusCode × Option StatusCode}
    {said : Said} (hm : FrameText errs msg ∧ msg ≠ "")
    (h : handleResultT L f msg c r = .ok (x, said)) :
    (∀ t ∈ said.log, FrameText errs t) ∧ FrameText errs said.message ∧
      (x.2.1 = .ok → r ≠ .error .ok → ∀ t ∈ said.log, t ∈ ticketNotices) := by
  unfold handleResultT at h
  split at h
  · cases h
    refine ⟨(by intro t ht; cases ht), hm.1, ?_⟩
    intro _ _ t ht
    cases ht
  · simp only at h
    have fin : ∀ {c c' : Conn} {r : Handler.Result} {log : List String},
        handleTicketsT c r = .ok (c', log) → (∀ t ∈ log, FrameText errs t) ∧
          ∀ t ∈ log, t ∈ ticketNotices :=
      fun h1 => ⟨fun t ht => (handleTicketsT_log h1 t ht).2,
        fun t ht => (handleTicketsT_log (errs := errs) h1 t ht).1⟩
    have hemp : FrameText errs "" := .sentence _ (by simp [frameSentences])
    split at h
    · simp only [exec_bind_eq_ok] at h
      obtain ⟨y, _, h⟩ := h
      split at h
      · cases h
        refine ⟨?_, .sentence _ (by simp [frameSentences]), ?_⟩
        · intro t ht
          rw [List.mem_singleton.1 ht]
          exact .sentence _ (by simp [frameSentences])
        · intro h; cases h
      · simp only [exec_bind_eq_ok] at h
        obtain ⟨z, h1, h⟩ := h
        cases h
        have := fin (c' := z.1) h1
        exact ⟨this.1, hemp, fun _ _ => this.2⟩
    · simp only [exec_bind_eq_ok] at h
      obtain ⟨z, h1, h⟩ := h
      cases h
      have := fin (c' := z.1) h1
      exact ⟨this.1, hemp, fun _ _ => this.2⟩

theorem dispatchT_fine {L : Lib} {f : KeyFault} {c : Conn} {call : Option HalfConn.AeadCall}
    {pt : Bytes} {w : Nat} {x : Conn × Result} {said : Said}
    (h : dispatchT L f c call pt w = .ok (x, said)) : Fine errs (x.2.code = .ok) said := by
  unfold dispatchT at h
  simp only [exec_bind_eq_ok] at h
  obtain ⟨y, _, h⟩ := h
  split at h
  · cases h
    exact .fixed _ (by simp [frameSentences]) (by simp) (by simp)
  · next n t _ =>
    split at h
    · next ht =>
      subst ht
      split at h
      · cases h
        exact .fixed _ (by simp [frameSentences]) (by simp) (by simp)
      · split at h
        · cases h
        · split at h
          · cases h
            exact .fixed _ (by simp [frameSentences]) (by simp) (by simp)
          · cases h
            exact .fixed _ (by decide) (by decide) (by simp)
    split at h
    · simp only [exec_bind_eq_ok] at h
      obtain ⟨y, _, z, h1, h⟩ := h
      have hs := handleResultT_says (errs := errs) (processMessage_text y.1) h1
      split at h
      · cases h
        have hne : ("Failed to process handshake message result: " ++ z.2.message) ≠ "" :=
          append_ne_empty _ _ (by simp)
        refine ⟨?_, .after _ _ (by simp [framePrefixes]) hs.2.1, fun h => (by cases h),
          fun _ => ⟨by simp, hne⟩⟩
        intro t ht
        rcases List.mem_append.1 ht with ht | ht
        · exact hs.1 t ht
        · rw [List.mem_singleton.1 ht]
          exact .after _ _ (by simp [framePrefixes]) hs.2.1
      · next hst =>
        cases h
        have hst' : z.1.2.1 = .ok := Classical.byContradiction fun h => hst h
        refine .notices rfl fun t ht => ⟨?_, hs.1 t ht⟩
        by_cases he : y.2 = .error .ok
        · exfalso
          rw [he] at h1
          cases h1
          cases ht
        · exact hs.2.2 hst' he t ht
    split at h
    · split at h
      · cases h
        exact .fixed _ (by simp [frameSentences]) (by simp) (by simp)
      · split at h
        · simp only [exec_bind_eq_ok] at h
          obtain ⟨y, h1, h⟩ := h
          cases h
          exact .notices rfl (retrieveAndSendT_log (c' := y.1) h1)
        · cases h
          exact .silent rfl
    · cases h
      have hlt : t.toNat < 256 := t.toNat_lt
      refine ⟨?_, .contentType _ hlt, fun h => (by cases h), fun _ => ⟨by simp, ?_⟩⟩
      · intro x hx
        rw [List.mem_singleton.1 hx]
        exact .contentType _ hlt
      · exact append_ne_empty _ _ (append_ne_empty _ _ (by simp))

theorem unprotectT_fine {L : Lib} {f : Fault} {w : String} (hw : errs w) {c : Conn}
    {header : Iovec} {payload : List Iovec} {out : Iovec} {x : Conn × Result} {said : Said}
    (h : unprotectT L f w c header payload out = .ok (x, said)) :
    Fine errs (x.2.code = .ok) said := by
  unfold unprotectT at h
  simp only at h
  split at h
  · cases h
    exact .fixed _ (by simp [frameSentences]) (by simp) (by simp)
  split at h
  · cases h
    exact .fixed _ (by simp [frameSentences]) (by simp) (by simp)
  split at h
  · cases h
    exact .fixed _ (by simp [frameSentences]) (by simp) (by simp)
  split at h
  · cases h
    exact .fixed _ (by simp [frameSentences]) (by simp) (by simp)
  simp only [exec_bind_eq_ok] at h
  obtain ⟨y, hy, h⟩ := h
  split at h
  · next hst =>
    have hm := half_text ((HalfConn.decryptT_says hw hy).failure hst)
    simp only [exec_bind_eq_ok] at h
    obtain ⟨z, _, h⟩ := h
    cases h
    have ht : FrameText errs ("Decryption failed: " ++ y.2) :=
      .after _ _ (by simp [framePrefixes]) hm.1
    refine ⟨?_, ht, fun h => (by cases h), fun _ => ⟨by simp, ?_⟩⟩
    · intro t h
      rw [List.mem_singleton.1 h]
      exact ht
    · exact append_ne_empty _ _ (by simp)
  · split at h
    · cases h
    · exact dispatchT_fine h

end Record

theorem Fine.iff {ok ok' : Prop} {said : Said} (h : Fine errs ok said) (he : ok ↔ ok') :
    Fine errs ok' said := by
  have : ok = ok' := propext he
  subst this
  exact h

namespace Frame
open Record (Conn RecordType Code)

theorem protectLoopT_fine {L : Lib} {f : Nat → EvpFault} {w : Nat → String}
    (hw : ∀ i, errs (w i)) {id : BufId} {fuel i : Nat} {s : State} {vs : List Iovec} {on : Nat}
    {first : Bool} {rem idx : Nat} {out : Iovec} {x : State × StatusCode × Iovec} {said : Said}
    (h : protectLoopT L f w id fuel i s vs on first rem idx out [] = .ok (x, said)) :
    Fine errs (x.2.1 = .ok) said ∧ (x.2.1 = .ok → said.log = []) := by
  induction fuel generalizing i s vs on first rem idx out with
  | zero => cases h
  | succ fuel ih =>
    unfold protectLoopT at h
    split at h
    · generalize (if rem < kMaxPlaintext then rem else kMaxPlaintext) = n at h
      simp only [exec_bind_eq_ok, State.crypterProtectT] at h
      obtain ⟨p, _, room, _, slot, _, y, ⟨z, hz, hy⟩, h⟩ := h
      cases hy
      have hf := Record.protectT_fine (errs := errs) (hw i) hz
      simp only at h
      split at h
      · next hc =>
        cases h
        have hc' : ¬ convertCode z.1.2.code = .ok := fun h => hc (convertCode_ok.1 h)
        have hfail := hf.1.failure hc
        refine ⟨⟨?_, hf.1.message, fun h => absurd h hc', fun _ => ⟨by simp, hfail.2⟩⟩,
          fun h => absurd h hc'⟩
        intro t ht
        simp only [List.nil_append, List.mem_append, List.mem_singleton] at ht
        rcases ht with ht | ht
        · exact hf.1.log t ht
        · rw [ht]
          exact .after _ _ (by simp [framePrefixes]) hf.1.message
      split at h
      · cases h
        have hne : "Protected an unexpected number of bytes." ≠ "" := by simp
        refine ⟨⟨?_, .sentence _ (by simp [frameSentences]), fun h => (by cases h),
          fun _ => ⟨by simp, hne⟩⟩, fun h => (by cases h)⟩
        intro t ht
        simp only [List.nil_append, List.mem_append, List.mem_singleton] at ht
        rcases ht with ht | ht
        · exact hf.1.log t ht
        · rw [ht]
          exact .sentence _ (by simp [frameSentences])
      · next hc _ =>
        have hc' : z.1.2.code = .ok := Classical.byContradiction hc
        rw [hf.2 hc', List.append_nil] at h
        exact ih h
    · cases h
      exact ⟨.silent rfl, fun _ => rfl⟩

theorem protectT_fine {L : Lib} {A : Allocator} {f : Nat → EvpFault} {w : Nat → String}
    (hw : ∀ i, errs (w i)) {s : State} {vs : List Iovec} {x : State × Result} {said : Said}
    (h : protectT L A f w s vs = .ok (x, said)) : Fine errs (x.2.status = .ok) said := by
  unfold protectT protectIntoT at h
  simp only [exec_bind_eq_ok] at h
  obtain ⟨y, hy, h⟩ := h
  have hf := (protectLoopT_fine hw hy).1
  split at h
  · cases h; exact hf
  · next hc =>
    have hc' : y.1.2.1 = .ok := Classical.byContradiction hc
    cases h
    have := hf.success hc'
    exact .notices rfl fun t ht => ⟨this.2 t ht, hf.log t ht⟩

theorem readHeaderT_text {k i : Nat} {vs : List Iovec} {on : Nat} {e : StatusCode} {m : String}
    (h : readHeaderT k i vs on = .ok (.error (e, m))) :
    e ≠ .ok ∧ m ∈ frameSentences ∧ m ≠ "" := by
  induction k generalizing i vs on with
  | zero => cases h
  | succ k ih =>
    cases vs with
    | nil => cases h; exact ⟨by simp, by simp [frameSentences], by simp⟩
    | cons v vs =>
      cases v with
      | null n => cases h
      | buf b =>
        simp only [readHeaderT, exec_bind_eq_ok] at h
        obtain ⟨b, _, h⟩ := h
        split at h
        · cases h; exact ⟨by simp, by simp [frameSentences], by simp⟩
        · simp only [exec_bind_eq_ok] at h
          obtain ⟨y, hy, h⟩ := h
          split at h
          · cases h; exact ih hy
          · cases h

theorem after_fixed {p m : String} (hp : p ∈ framePrefixes) (hm : m ∈ frameSentences) :
    FrameText errs (p ++ m) := .after _ _ hp (.sentence _ hm)

theorem unprotectIntoT_fine {L : Lib} {f : Record.Fault} {w : String} (hw : errs w)
    {s : State} {vs : List Iovec} {out : Iovec} {x : State × StatusCode × Nat × Iovec}
    {said : Said} (h : unprotectIntoT L f w s vs out = .ok (x, said)) :
    (totalLen vs < 22 → x.2.1 = .failedPrecondition ∧ said = ⟨[], tooSmall⟩) ∧
    (¬ totalLen vs < 22 → Fine errs (x.2.1 = .ok) said) := by
  unfold unprotectIntoT at h
  have hn : numberBytesToUnprotect s (totalLen vs) = 0 ↔ totalLen vs < 22 := by
    unfold numberBytesToUnprotect
    rw [Record.recordOverhead_eq]
    simp only [kHeaderLength]
    split <;> omega
  split at h
  · next hz =>
    cases h
    exact ⟨fun _ => ⟨rfl, rfl⟩, fun hh => absurd (hn.1 hz) hh⟩
  · next hz =>
    refine ⟨fun hh => absurd (hn.2 hh) hz, fun _ => ?_⟩
    simp only [exec_bind_eq_ok] at h
    obtain ⟨y, hy, h⟩ := h
    split at h
    · next e m =>
      have ⟨h1, h2, h3⟩ := readHeaderT_text hy
      cases h
      refine ⟨?_, .sentence _ h2, fun h => absurd h h1, fun _ => ⟨by simp, h3⟩⟩
      intro t ht
      rw [List.mem_singleton.1 ht]
      exact after_fixed (by simp [framePrefixes]) h2
    · simp only [exec_bind_eq_ok] at h
      obtain ⟨z, hz, h⟩ := h
      split at h
      · have h1 := isolate_error hz
        cases h
        refine ⟨?_, .sentence _ (by simp [frameSentences, isolateMessage]), fun h => absurd h h1,
          fun _ => ⟨by simp, by simp [isolateMessage]⟩⟩
        intro t ht
        rw [List.mem_singleton.1 ht]
        exact after_fixed (by simp [framePrefixes]) (by simp [frameSentences, isolateMessage])
      · simp only [exec_bind_eq_ok, State.crypterUnprotectT] at h
        obtain ⟨y, ⟨z, hz, hy⟩, h⟩ := h
        cases hy
        have hf := Record.unprotectT_fine (errs := errs) hw hz
        simp only at h
        split at h
        · next hc =>
          have hc' : ¬ convertCode z.1.2.code = .ok := fun h => hc (convertCode_ok.1 h)
          cases h
          refine ⟨?_, hf.message, fun h => absurd h hc', fun _ => ⟨by simp, (hf.failure hc).2⟩⟩
          intro t ht
          simp only [List.mem_append, List.mem_singleton] at ht
          rcases ht with ht | ht
          · exact hf.log t ht
          · rw [ht]
            exact .sentence _ (by simp [frameSentences])
        · next hc =>
          have hc' : z.1.2.code = .ok := Classical.byContradiction hc
          cases h
          exact .notices rfl fun t ht => ⟨(hf.success hc').2 t ht, hf.log t ht⟩

theorem unprotectLoopT_fine {L : Lib} {A : Allocator} {f : Nat → Record.Fault}
    {w : Nat → String} (hw : ∀ i, errs (w i)) {fuel i : Nat} {s : State} {vs : List Iovec}
    {on rem : Nat} {done : List (BufId × Bytes)} {log : List String} {x : State × Result}
    {said : Said} (hl : ∀ t ∈ log, t ∈ ticketNotices ∧ FrameText errs t)
    (h : unprotectLoopT L A f w fuel i s vs on rem done log = .ok (x, said)) :
    Fine errs (x.2.status = .ok) said := by
  induction fuel generalizing i s vs on rem done log with
  | zero => cases h
  | succ fuel ih =>
    unfold unprotectLoopT at h
    split at h
    · simp only [exec_bind_eq_ok] at h
      obtain ⟨y, hy, h⟩ := h
      split at h
      · next e m =>
        have ⟨h1, h2, h3⟩ := readHeaderT_text hy
        cases h
        refine ⟨?_, .sentence _ h2, fun h => absurd h h1, fun _ => ⟨by simp, h3⟩⟩
        intro t ht
        simp only [List.mem_append, List.mem_singleton] at ht
        rcases ht with ht | ht
        · exact (hl t ht).2
        · rw [ht]
          exact after_fixed (by simp [framePrefixes]) h2
      · simp only [exec_bind_eq_ok] at h
        obtain ⟨z, hz, h⟩ := h
        split at h
        · have h1 := isolate_error hz
          cases h
          refine ⟨?_, .sentence _ (by simp [frameSentences, isolateMessage]),
            fun h => absurd h h1, fun _ => ⟨by simp, by simp [isolateMessage]⟩⟩
          intro t ht
          simp only [List.mem_append, List.mem_singleton] at ht
          rcases ht with ht | ht
          · exact (hl t ht).2
          · rw [ht]
            exact after_fixed (by simp [framePrefixes]) (by simp [frameSentences, isolateMessage])
        · simp only [exec_bind_eq_ok, State.crypterUnprotectT] at h
          obtain ⟨y, ⟨z, hz, hy⟩, h⟩ := h
          cases hy
          have hf := Record.unprotectT_fine (errs := errs) (hw i) hz
          simp only at h
          split at h
          · next hc =>
            have hc' : ¬ convertCode z.1.2.code = .ok := fun h => hc (convertCode_ok.1 h)
            have ht : FrameText errs ("Failed to unprotect bytes from peer: " ++ z.2.message) :=
              .after _ _ (by simp [framePrefixes]) hf.message
            cases h
            refine ⟨?_, ht, fun h => absurd h hc', fun _ => ⟨by simp, ?_⟩⟩
            · intro t ht'
              simp only [List.mem_append, List.mem_singleton] at ht'
              rcases ht' with (ht' | ht') | ht'
              · exact (hl t ht').2
              · exact hf.log t ht'
              · rw [ht']
                exact ht
            · exact append_ne_empty _ _ (by simp)
          · next hc =>
            have hc' : z.1.2.code = .ok := Classical.byContradiction hc
            simp only [exec_bind_eq_ok] at h
            obtain ⟨rem', _, h⟩ := h
            refine ih ?_ h
            intro t ht
            rcases List.mem_append.1 ht with ht | ht
            · exact hl t ht
            · exact ⟨(hf.success hc').2 t ht, hf.log t ht⟩
    · cases h
      exact .notices rfl hl

theorem unprotectT_fine {L : Lib} {A : Allocator} {f : Nat → Record.Fault}
    {w : Nat → String} (hw : ∀ i, errs (w i)) {s : State} {vs : List Iovec} {x : State × Result}
    {said : Said} (h : unprotectT L A f w s vs = .ok (x, said)) :
    (totalLen vs < 22 → x.2.status = .failedPrecondition ∧ said = ⟨[], tooSmall⟩) ∧
    (¬ totalLen vs < 22 → Fine errs (x.2.status = .ok) said) := by
  unfold unprotectT at h
  rw [Record.recordOverhead_eq] at h
  simp only at h
  split at h
  · next hz =>
    cases h
    exact ⟨fun _ => ⟨rfl, rfl⟩, fun hh => absurd hz hh⟩
  · next hz =>
    refine ⟨fun hh => absurd hh hz, fun _ => ?_⟩
    exact unprotectLoopT_fine hw (by intro t ht; cases ht) h

open Spec (FrameFailed TooShort)

/-- The texts of one call on a frame protector. -/
theorem stepT_fine {L : Lib} {A : Allocator} {w : Nat → String} (hw : ∀ i, errs (w i)) {s : State}
    {op : Op} {x : State × Event} {said : Said} (h : stepT L A w s op = .ok (x, said)) :
    (TooShort op → FrameFailed x.2 ∧ said = ⟨[], tooSmall⟩) ∧
    (¬ TooShort op → Fine errs (¬ FrameFailed x.2) said) := by
  cases op with
  | protect f vs =>
    simp only [stepT, exec_bind_eq_ok] at h
    obtain ⟨y, hy, h⟩ := h
    cases h
    exact ⟨fun h => h.elim, fun _ => (protectT_fine hw hy).iff (by simp [FrameFailed])⟩
  | protectInto f vs out =>
    simp only [stepT, exec_bind_eq_ok] at h
    obtain ⟨y, hy, h⟩ := h
    cases h
    exact ⟨fun h => h.elim, fun _ => (protectLoopT_fine hw hy).1.iff (by simp [FrameFailed])⟩
  | unprotect f vs =>
    simp only [stepT, exec_bind_eq_ok] at h
    obtain ⟨y, hy, h⟩ := h
    cases h
    have := unprotectT_fine hw hy
    refine ⟨fun h => ?_, fun h => (this.2 h).iff (by simp [FrameFailed])⟩
    have := this.1 h
    refine ⟨?_, this.2⟩
    show y.1.2.status ≠ .ok
    rw [this.1]
    simp
  | unprotectInto f vs out =>
    simp only [stepT, exec_bind_eq_ok] at h
    obtain ⟨y, hy, h⟩ := h
    cases h
    have := unprotectIntoT_fine (hw 0) hy
    refine ⟨fun h => ?_, fun h => (this.2 h).iff (by simp [FrameFailed])⟩
    have := this.1 h
    refine ⟨?_, this.2⟩
    show y.1.2.1 ≠ .ok
    rw [this.1]
    simp

end Frame
end S2A
