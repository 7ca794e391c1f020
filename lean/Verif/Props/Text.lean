import Verif.Lemmas.TextProxy
import Verif.Lemmas.TextAlert
import Verif.Props.Frame
import Verif.Props.Proxy
/-
What the library says: nothing secret (C83), something at every failure (C84), which alert (C85).
-/
namespace S2A
open Spec

/-! ## C83 -/

/-- **C83, the details of the S2A.**  They are passed on byte by byte: nothing is lost, changed or
added. -/
theorem C83_details_unchanged (b : Bytes) :
    (textOf b).toList.map Char.toNat = b.map UInt8.toNat := by
  unfold textOf
  rw [String.toList_ofList, List.map_map]
  refine List.map_congr_left fun x _ => ?_
  have h : x.toNat < 256 := x.toNat_lt
  have hv : x.toNat.isValidChar := Or.inl (by omega)
  simp only [Function.comp, Char.ofNat, hv, dif_pos]
  rfl

example : textOf [110, 111] = "no" := by decide

/-- Any state of a frame protector, any call that returns, any error queue of the cryptographic
library: every line logged and the message returned is from the list of `Spec/Text.lean`. -/
theorem C83_frame_protector_texts (L : Lib) (A : Frame.Allocator) (errs : Nat → String)
    (s s' : Frame.State) (op : Frame.Op) (ev : Frame.Event)
    (h : Frame.step L A s op = .ok (s', ev)) :
    ∃ said, Frame.stepT L A errs s op = .ok ((s', ev), said) ∧
      (∀ t ∈ said.log, FrameText (fun w => ∃ i, w = errs i) t) ∧
      FrameText (fun w => ∃ i, w = errs i) said.message := by
  rw [← Frame.stepT_mute L A errs] at h
  cases hx : Frame.stepT L A errs s op with
  | error u => rw [hx] at h; cases h
  | ok x =>
    obtain ⟨x, said⟩ := x
    rw [hx] at h
    cases h
    refine ⟨said, rfl, ?_⟩
    have hf := Frame.stepT_fine (errs := fun w => ∃ i, w = errs i) (fun i => ⟨i, rfl⟩) hx
    by_cases ht : TooShort op
    · rw [(hf.1 ht).2]
      exact ⟨(by intro t h; cases h), .sentence _ (by simp [frameSentences, Frame.tooSmall])⟩
    · exact ⟨(hf.2 ht).log, (hf.2 ht).message⟩

/-- Any state of a proxy, any call that returns, any texts of the token manager and any
error queue of the cryptographic library: every line logged and the message returned is from the list of
`Spec/Text.lean`; the details of an error are those that S2A sent in the response of this call. -/
theorem C83_proxy_texts (L : Lib) (why : Nat → String) (xIn xOut : LibText)
    (s s' : Proxy.State) (op : Proxy.Op) (ev : Proxy.Event)
    (h : Proxy.step L s op = .ok (s', ev)) :
    ∃ said, Proxy.stepT L why xIn xOut s op = .ok ((s', ev), said) ∧
      (∀ t ∈ said.log, ProxyText (fun w => ∃ i, w = why i)
        (fun q => q = xIn.queue ∨ q = xOut.queue) (DetailsOf ev) t) ∧
      ProxyText (fun w => ∃ i, w = why i) (fun q => q = xIn.queue ∨ q = xOut.queue)
        (DetailsOf ev) said.message := by
  rw [← Proxy.stepT_mute L why xIn xOut] at h
  cases hx : Proxy.stepT L why xIn xOut s op with
  | error u => rw [hx] at h; cases h
  | ok x =>
    obtain ⟨x, said⟩ := x
    rw [hx] at h
    cases h
    refine ⟨said, rfl, ?_⟩
    have hf := Proxy.stepT_fine (why := fun w => ∃ i, w = why i)
      (errs := fun q => q = xIn.queue ∨ q = xOut.queue) (fun i => ⟨i, rfl⟩) (Or.inl rfl)
      (Or.inr rfl) hx
    have he : ∀ P Q R, ProxyText P Q R "" := fun P Q R => .sentence _ (by simp [proxySentences])
    by_cases hn : NoStatus ev
    · rw [(hf.1 hn).2]
      refine ⟨?_, he _ _ _⟩
      intro t ht
      rw [List.mem_singleton.1 ht]
      exact he _ _ _
    by_cases hc : IsCreate ev ∧ ProxyFailed ev ∧ s.finished = true
    · have := hf.2.1 hc.1 hc.2.1 hc.2.2
      rw [this.1]
      exact ⟨(by intro t h; cases h), this.2.1⟩
    · have := hf.2.2 hn hc
      exact ⟨this.log, this.message⟩

/-! ## C84 -/

/-- Any call on a frame protector in any state.
* A call that fails returns a message.
* It logs at least one line, unless it is an `Unprotect` of fewer bytes than the shortest record
  has: then it logs nothing.
* A call that succeeds returns no message and logs at most notices about session tickets. -/
theorem C84_frame_protector_partial (L : Lib) (A : Frame.Allocator) (errs : Nat → String)
    (s s' : Frame.State) (op : Frame.Op) (ev : Frame.Event) (said : Said)
    (h : Frame.stepT L A errs s op = .ok ((s', ev), said)) :
    (FrameFailed ev → said.message ≠ "" ∧ (said.log = [] ↔ TooShort op)) ∧
    (¬ FrameFailed ev → said.message = "" ∧ ∀ t ∈ said.log, t ∈ ticketNotices) := by
  have hf := Frame.stepT_fine (errs := fun w => ∃ i, w = errs i) (fun i => ⟨i, rfl⟩) h
  by_cases ht : TooShort op
  · have := hf.1 ht
    rw [this.2]
    exact ⟨fun _ => ⟨by simp [Frame.tooSmall], by simp [ht]⟩, fun hn => absurd this.1 hn⟩
  · have hf := hf.2 ht
    refine ⟨fun hfail => ?_, fun hok => hf.success hok⟩
    have := hf.failure (fun hn => hn hfail)
    exact ⟨this.2, fun h => absurd h this.1, fun h => absurd h ht⟩

/-- Any call on a proxy in any state.
* A call that fails returns a message and logs a line, with two exceptions: if S2A's response has
  no status the message and the line are empty; if `CreateFrameProtector` fails after the end of
  the handshake it logs nothing.
* A call that succeeds returns no message, and logs at most notices about tokens, empty
  identities and a missing peer identity. -/
theorem C84_proxy_partial (L : Lib) (why : Nat → String) (xIn xOut : LibText)
    (s s' : Proxy.State) (op : Proxy.Op) (ev : Proxy.Event) (said : Said)
    (h : Proxy.stepT L why xIn xOut s op = .ok ((s', ev), said)) :
    (ProxyFailed ev → (said.message = "" ↔ NoStatus ev) ∧
      (said.log = [] ↔ IsCreate ev ∧ s.finished = true) ∧ (NoStatus ev → said.log = [""])) ∧
    (¬ ProxyFailed ev → said.message = "" ∧
      ∀ t ∈ said.log, ProxyNotice (fun w => ∃ i, w = why i) t) := by
  have hf := Proxy.stepT_fine (why := fun w => ∃ i, w = why i) (errs := fun _ => True)
    (fun i => ⟨i, rfl⟩) trivial trivial h
  simp only at hf
  by_cases hn : NoStatus ev
  · have := hf.1 hn
    rw [this.2]
    refine ⟨fun _ => ⟨by simp [hn], ?_, fun _ => rfl⟩, fun h => absurd this.1 h⟩
    refine ⟨fun h => (by cases h), fun h => ?_⟩
    cases ev <;> first | exact hn.elim | exact h.1.elim
  by_cases hc : IsCreate ev ∧ ProxyFailed ev ∧ s.finished = true
  · have := hf.2.1 hc.1 hc.2.1 hc.2.2
    refine ⟨fun _ => ⟨⟨fun h => absurd h this.2.2, fun h => absurd h hn⟩,
      ⟨fun _ => ⟨hc.1, hc.2.2⟩, fun _ => this.1⟩, fun h => absurd h hn⟩,
      fun h => absurd hc.2.1 h⟩
  · have hf := hf.2.2 hn hc
    refine ⟨fun hfail => ?_, fun hok => hf.success hok⟩
    have := hf.failure hfail
    exact ⟨⟨fun h => absurd h this.2, fun h => absurd h hn⟩,
      ⟨fun h => absurd h this.1, fun h => absurd ⟨h.1, hfail, h.2⟩ hc⟩, fun h => absurd h hn⟩

/-! Witnesses for C83 and C84: calls that log and fail. -/

namespace Demo

/-- The error queues of the cryptographic library or the texts of the token manager. -/
def texts (n : Nat) : String := "reason " ++ toString n

/-- What the library contributes to the messages of key derivations. -/
def libText : LibText := ⟨"bad key", true⟩

/-- What a call says. -/
def says {α : Type} (x : Exec (α × Said)) : Option Said :=
  match x with
  | .ok (_, said) => some said
  | .error _ => none

end Demo
open Demo

/-- A forged record. -/
example : says (Frame.stepT Lib.toy Frame.Demo.alloc texts Frame.Demo.rightS
    (.unprotect (fun _ => .none) [.buf ([23, 3, 3, 0, 17] ++ zeros 17)])) =
    some ⟨["Decryption failed: Checking tag failed: reason 0",
        "Failed to unprotect bytes from peer: Decryption failed: Checking tag failed: reason 0"],
      "Failed to unprotect bytes from peer: Decryption failed: Checking tag failed: reason 0"⟩ := by
  decide +kernel

/-- A record of an unknown content type. -/
example : says (Frame.stepT Lib.toy Frame.Demo.alloc texts Frame.Demo.rightS
    (.unprotect (fun _ => .none) [.buf (Frame.Demo.record 0 [1, 2, 77])])) =
    some ⟨["TLS record type byte 77 is invalid.",
        "Failed to unprotect bytes from peer: TLS record type byte 77 is invalid."],
      "Failed to unprotect bytes from peer: TLS record type byte 77 is invalid."⟩ := by
  decide +kernel

/-- Negation of C84: an `Unprotect` of too few bytes fails and logs nothing, whichever the state,
and whether or not the buffer is the caller's. -/
theorem C84_too_short_not_logged (L : Lib) (A : Frame.Allocator) (errs : Nat → String)
    (s : Frame.State) (f : Nat → Record.Fault) (g : Record.Fault) (vs : List Iovec) (out : Iovec)
    (h : totalLen vs < 22) :
    Frame.stepT L A errs s (.unprotect f vs) = .ok ((s, .result ⟨.failedPrecondition, []⟩),
      ⟨[], "|protected_bytes| is too small to contain a TLS record."⟩) ∧
    Frame.stepT L A errs s (.unprotectInto g vs out) =
      .ok ((s, .status .failedPrecondition out.len out),
        ⟨[], "|protected_bytes| is too small to contain a TLS record."⟩) := by
  have h' : totalLen vs < s.conn.recordOverhead := h
  refine ⟨?_, ?_⟩
  · simp only [Frame.stepT, Frame.unprotectT]
    rw [if_pos h']
    rfl
  · have h0 : Frame.numberBytesToUnprotect s (totalLen vs) = 0 := if_pos h'
    simp only [Frame.stepT, Frame.unprotectIntoT]
    rw [if_pos h0]
    rfl

example : totalLen [.buf [23, 3, 3, 0, 1], .buf [7]] < 22 := by decide

/-- Negation of C84: a response without a status is reported with an empty text. -/
theorem C84_no_status_empty_text (L : Lib) (why : Nat → String) (xIn xOut : LibText)
    (s : Proxy.State)
    (dec : Bytes → Option Proto.SessionResp) (bytes : Bytes) (resp : Proto.SessionResp)
    (hb : bytes ≠ []) (hd : dec bytes = some resp) (hs : resp.status = none) :
    Proxy.stepT L why xIn xOut s (.forPeer dec (some bytes)) =
      .ok ((s, .forPeer (some resp) ⟨.internal, 0, none⟩), ⟨[""], ""⟩) := by
  have hb' : ¬ (((some bytes).getD [] == []) = true) := by simpa using hb
  simp only [Proxy.stepT, Proxy.getBytesForPeerT, Proxy.response]
  rw [if_neg hb', if_neg hb']
  simp only [Option.getD_some, hd, hs]
  rfl

example : (fun _ => some { Proxy.Demo.frames with status := none } :
    Bytes → Option Proto.SessionResp) [1] = some { Proxy.Demo.frames with status := none } := rfl

/-- Negation of C84: a failing `CreateFrameProtector` logs nothing once the handshake is
finished (here: TLS 1.2 was negotiated). -/
theorem C84_create_not_logged : ∃ (s : Proxy.State) (evs : List Proxy.Event),
    Proxy.Reach Lib.toy Proxy.Demo.client s evs ∧
    ∃ s', Proxy.stepT Lib.toy texts libText libText s (.createFrameProtector .none .none) =
      .ok ((s', .createFrameProtector (.error .invalidArgument)),
        ⟨[], "TLS 1.3 is the only supported TLS version."⟩) := by
  refine ⟨_, _, Proxy.Demo.reach (ops := [.forS2A Proxy.Demo.env none, Proxy.Demo.says
    { Proxy.Demo.frames with result := some { Proxy.Demo.result with
        state := some { Proxy.Demo.state with tlsVersion := 0 } } }]) (by decide +kernel), _, rfl⟩

/-- A failing construction of an AEAD: fixed words and the error queue. -/
example : says (Proxy.stepT Lib.toy texts libText libText
    (Proxy.Demo.hist Proxy.Demo.client [.forS2A Proxy.Demo.env none,
      Proxy.Demo.says Proxy.Demo.done]).1
    (.createFrameProtector .none { KeyFault.none with create := true })) =
    some ⟨[], "Initialization of |EVP_AEAD_CTX| failed: bad key"⟩ := by decide +kernel

/-- A failing encryption. -/
example : says (Frame.stepT Lib.toy Frame.Demo.alloc texts Frame.Demo.rightS
    (.protect (fun _ => { EvpFault.none with final := true }) [.buf [1, 2]])) =
    some ⟨["Encryption failure: Finalizing encryption failed. reason 0",
        "Failed to protect: Finalizing encryption failed. reason 0"],
      "Finalizing encryption failed. reason 0"⟩ := by decide +kernel

/-- A successful call that logs a notice: the token manager refuses. -/
example : (says (Proxy.stepT Lib.toy texts libText libText (Proxy.Demo.made Proxy.Demo.server)
    (.forS2A Proxy.Demo.envRefusing (some [1, 2])))) =
    some ⟨["Unable to retrieve access token: reason 1"], ""⟩ := by decide +kernel

/-- An error from S2A. -/
example : says (Proxy.stepT Lib.toy texts libText libText (Proxy.Demo.made Proxy.Demo.client)
    (.forPeer (fun _ => some { Proxy.Demo.frames with status := some ⟨3, [110, 111]⟩ })
      (some [1]))) =
    some ⟨["Error from the S2A: no"], "Error from the S2A: no"⟩ := by decide +kernel

/-! ## C85 -/

/-- Any state of a frame protector, any `Unprotect`: if the crypter met an alert other than
close_notify, the message is the same for all of them: it names the number 21, which is the
content type of alerts, not the number of the alert. -/
theorem C85_all_alerts_same_text (L : Lib) (A : Frame.Allocator) (errs : Nat → String)
    (s s' : Frame.State) (op : Frame.Op) (ev : Frame.Event) (said : Said)
    (hop : (∃ f vs, op = .unprotect f vs) ∨ ∃ f vs out, op = .unprotectInto f vs out)
    (h : Frame.stepT L A errs s op = .ok ((s', ev), said)) :
    ∃ new, s'.evs = s.evs ++ new ∧ ∀ r, .opened r ∈ new → r.code = .alertOther →
      said.message = "Received alert of type 21." ∨
      said.message = "Failed to unprotect bytes from peer: Received alert of type 21." := by
  rcases hop with ⟨f, vs, rfl⟩ | ⟨f, vs, out, rfl⟩
  · simp only [Frame.stepT, HalfConn.exec_bind_eq_ok] at h
    obtain ⟨y, hy, h⟩ := h
    cases h
    obtain ⟨new, he, hn⟩ := Frame.unprotectT_alert hy
    exact ⟨new, he, fun r hr hc => Or.inr ((hn r hr hc).trans (by decide))⟩
  · simp only [Frame.stepT, HalfConn.exec_bind_eq_ok] at h
    obtain ⟨y, hy, h⟩ := h
    cases h
    obtain ⟨new, he, hn⟩ := Frame.unprotectIntoT_alert hy
    exact ⟨new, he, fun r hr hc => Or.inl (hn r hr hc)⟩

/-- Negation of C85: the peer's alerts bad_record_mac (20) and internal_error (80) get the same
report, which has the number of neither. -/
theorem C85_alerts_indistinguishable :
    says (Frame.stepT Lib.toy Frame.Demo.alloc texts Frame.Demo.rightS
      (.unprotect (fun _ => .none) [.buf (Frame.Demo.record 0 [2, 20, 21])])) =
    says (Frame.stepT Lib.toy Frame.Demo.alloc texts Frame.Demo.rightS
      (.unprotect (fun _ => .none) [.buf (Frame.Demo.record 0 [2, 80, 21])])) ∧
    (says (Frame.stepT Lib.toy Frame.Demo.alloc texts Frame.Demo.rightS
      (.unprotect (fun _ => .none) [.buf (Frame.Demo.record 0 [2, 20, 21])]))).map
        (·.message) =
      some "Failed to unprotect bytes from peer: Received alert of type 21." := by
  decide +kernel

/-- Any state of a crypter, any `Unprotect` that returns: the message says that an alert arrived
exactly if the result is that of an alert, and that the peer closes exactly if the result is that
of a close_notify.  Missing: which alert it was. -/
theorem C85_alert_reported_partial (L : Lib) (f : Record.Fault) (q : String)
    (c c' : Record.Conn) (header : Iovec) (payload : List Iovec) (out : Iovec)
    (r : Record.Result) (said : Said)
    (h : Record.unprotectT L f q c header payload out = .ok ((c', r), said)) :
    (r.code = .alertOther ↔ said.message = "Received alert of type 21.") ∧
    (r.code = .alertCloseNotify ↔ said.message = "Received close notify alert." ∨
      said.message = "Close notify alert has been received. Close the connection.") := by
  have := Record.unprotectT_alert h
  refine ⟨⟨fun hc => by rw [this.1 hc], fun hm => ?_⟩, ?_⟩
  · exact Classical.byContradiction fun hc => this.2.1 hc hm
  · rw [this.2.2]
    simp

end S2A
