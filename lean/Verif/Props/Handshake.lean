import Verif.Lemmas.HsCalls
import Verif.Props.Demo
/-
Property theorems about handshake messages received after the handshake (session tickets and
key updates): C22 to C30.

`Reach L a c evs` (Lemmas/Reach.lean): a connection created with arguments `a` is in state
`c` after a history of calls that produced the events `evs`.  `heard evs` are the records
decrypted in it, `handshakes evs` the contents of the handshake records among them, and
`view (handshakes evs)` what these say when read as TLS handshake messages
(Spec/Heard.lean, Spec/Handshake.lean).
-/
namespace S2A.Record
open HalfConn (AeadCall Good At bump blocked exec_bind_eq_ok)
open Spec (View view isTicket hsSplit verdict ticketType updateType due FifthStraddled
  LastStraddles CompletesFifth UpdatesWhole Unexpected)
open Demo

set_option maxRecDepth 100000

/-- What is "heard" is what the AEAD opens at the current position of the inbound direction. -/
theorem heard_is_authentic (L : Lib) (a : CreateArgs) (s : Spec.Suite) (c c' : Conn)
    (evs : List Event) (f : Fault) (header : Iovec) (payload : List Iovec) (out : Iovec)
    (r : Result) (x : Bytes × UInt8) (hs : Spec.suite a.ciphersuite = some s)
    (hr : Reach L a c evs) (hp : AllWF payload) (ho : out.WF)
    (h : unprotect L f c header payload out = .ok (c', r)) (hx : r.record = some x) :
    ∃ inner, (inPos L a s evs).open L header.bytes (flat payload) = some inner ∧
      Spec.unpad inner = some x := by
  have hin : ∀ p, r.inner = some p →
      (inPos L a s evs).open L header.bytes (flat payload) = some p := by
    intro p hpi
    rcases unprotect_cases hr hs f header payload out hp ho with
      ⟨r', h1, _, _, _, _, _, _, _, _, _, h2⟩ |
      ⟨hcn, hhd, hl1, hl2, hlt, hat, h1 | ⟨p', ob, ho1, ho2, ho3, ho4, ho5, h1⟩⟩
    · rw [h] at h1
      cases h1
      rw [h2] at hpi; cases hpi
    · rw [h] at h1; cases h1.1; cases hpi
    · rw [h] at h1
      rw [dispatch_inner h1.symm] at hpi
      cases hpi
      exact ho1
  cases hi : r.inner with
  | none => simp [Result.record, hi] at hx
  | some p =>
    rw [Result.record, hi, Option.bind_some] at hx
    exact ⟨p, hin p hi, hx⟩

/-- The bytes of the handshake records received so far. -/
abbrev stream (evs : List Event) : Bytes := (handshakes evs).flatten

/-- All messages in order so far: tickets and key updates with non-empty bodies, key updates
last in their records. -/
abbrev InOrder (evs : List Event) : Prop := (view (handshakes evs)).sane = true

theorem step_of_unprotect {L : Lib} {f : Fault} {c c' : Conn} {header payload out r}
    (h : unprotect L f c header payload out = .ok (c', r)) :
    step L c (.unprotect f header payload out) = .ok (c', .opened r) := by
  simp [step, h]

/-! ## C23: at most five tickets, each byte-exact -/

/-- Whatever was received: what was handed to the ticket sender are the first `n ≤ 5` session
tickets of the received handshake stream, complete with their headers, and the connection's
own URL, connection id and local identity. -/
theorem C23_first_five_tickets (L : Lib) (a : CreateArgs) (c : Conn) (evs : List Event)
    (hr : Reach L a c evs) (x : SenderCall) (hx : x ∈ c.sent) :
    (∃ n, n ≤ 5 ∧ x.tickets.length = n ∧
      x.tickets = (Spec.tickets (hsSplit (stream evs)).1).take n) ∧
    x.url = a.url ∧ x.connectionId = a.connectionId ∧ x.localIdentity = a.localIdentity := by
  have i := hr.inv
  cases hret : c.handler.retrieved with
  | false => rw [(i.kept hret).1] at hx; cases hx
  | true =>
    obtain ⟨_, hs1, h1, _, h2⟩ := i.sent hret
    rw [h2, List.mem_singleton] at hx
    subst hx
    refine ⟨⟨_, ?_, rfl, ?_⟩, rfl, rfl, rfl⟩
    · simp only [List.length_take]; omega
    · have hp : (view hs1).tickets.take 5 <+: Spec.tickets (hsSplit (stream evs)).1 :=
        ((List.take_prefix _ _).trans (view_tickets_prefix hs1)).trans (stream_tickets_mono h1)
      exact (List.prefix_iff_eq_take.1 hp)

/-- Every message of the stream is a message: type, 24-bit length, and that many bytes. -/
theorem C23_stream_messages (s m : Bytes) (hm : m ∈ (hsSplit s).1) :
    ∃ t body, body.length < 2 ^ 24 ∧ m = Spec.hsMessage t body := by
  obtain ⟨ms, q, hs⟩ : ∃ ms q, hsSplit s = (ms, q) := ⟨_, _, rfl⟩
  rw [hs] at hm
  induction ms generalizing s with
  | nil => cases hm
  | cons m' ms ih =>
    rcases Handler.hsSplit_inv _ _ _ hs with ⟨h0, _⟩ | ⟨m1, ms1, s1, h1, h2, h3, h4, h5⟩
    · cases h0
    · cases h1
      rcases List.mem_cons.1 hm with rfl | hm
      · match m, h4, h5 with
        | t :: x :: y :: z :: body, h4, _ =>
          simp only [List.length_cons, Handler.bodyLen, Spec.len24] at h4
          have hx := x.toNat_lt
          have hy := y.toNat_lt
          have hz := z.toNat_lt
          have hb : body.length = x.toNat * 65536 + y.toNat * 256 + z.toNat := by omega
          refine ⟨t, body, by omega, ?_⟩
          unfold Spec.hsMessage
          have e1 : body.length / 65536 = x.toNat := by omega
          have e2 : UInt8.ofNat (body.length / 256) = y := by
            apply UInt8.toNat_inj.1
            rw [UInt8.toNat_ofNat']
            omega
          have e3 : UInt8.ofNat body.length = z := by
            apply UInt8.toNat_inj.1
            rw [UInt8.toNat_ofNat']
            omega
          rw [e1, e2, e3]
          simp
      · exact ih s1 hm h3

/-- Two tickets, the second one cut over three records, then application data: both are sent. -/
example : ∃ c evs x, Reach Lib.toy rightArgs c evs ∧ c.sent = [x] ∧
    x.tickets = [[4, 0, 0, 1, 7], [4, 0, 0, 2, 8, 9]] ∧ x.connectionId = 7 :=
  ⟨_, _, _, ⟨right, recvAll (pos 0) [[4, 0, 0, 1, 7, 4, 0, 22], [0, 2, 22], [8, 9, 22, 0], [1, 23]],
    right_created, rfl⟩, rfl, by decide, by decide⟩

/-! ## C24: sent at most once, never empty -/

theorem C24_sent_at_most_once (L : Lib) (a : CreateArgs) (c : Conn) (evs : List Event)
    (hr : Reach L a c evs) : c.sent.length ≤ 1 ∧ ∀ x ∈ c.sent, x.tickets ≠ [] := by
  have i := hr.inv
  cases hret : c.handler.retrieved with
  | false => rw [(i.kept hret).1]; simp
  | true =>
    obtain ⟨_, hs1, _, h1, h2⟩ := i.sent hret
    rw [h2]
    refine ⟨by simp, ?_⟩
    intro x hx
    rw [List.mem_singleton] at hx
    subst hx
    simp only
    intro h0
    apply h1
    cases ht : (view hs1).tickets with
    | nil => rfl
    | cons y ys => rw [ht] at h0; cases h0

/-- After they were sent, later tickets are not: still one call after a sixth ticket and more
application data. -/
example : ∃ c evs x, Reach Lib.toy rightArgs c evs ∧ c.sent = [x] ∧ x.tickets = [[4, 0, 0, 1, 7]] :=
  ⟨_, _, _, ⟨right, recvAll (pos 0) [[4, 0, 0, 1, 7, 22], [1, 23], [4, 0, 0, 1, 8, 22], [2, 23]],
    right_created, rfl⟩, rfl, by decide⟩

/-! ## C25: received tickets are not lost -/

/-- As long as the peer's messages are in order, no key update failed in the crypto library,
and the record completing the fifth ticket did not also begin a sixth: what was handed to the
ticket sender is exactly what is due (`Spec.due`): the first five tickets as soon as there
are five, or those received when application data arrives. Missing from the full statement:
the two exceptions below. -/
theorem C25_tickets_sent_when_due_partial (L : Lib) (a : CreateArgs) (c : Conn)
    (evs : List Event) (hr : Reach L a c evs) (ho : InOrder evs) (hf : NoFailedUpdate evs)
    (hs : ¬ FifthStraddled (handshakes evs)) :
    c.sent.map (·.tickets) = (due .start (heard evs)).toList := by
  have t := hr.tidy ho hf
  cases hd : due .start (heard evs) with
  | some d => exact (t.sent d hd).2 hs
  | none =>
    have := (t.wait hd).1
    rw [(hr.inv.kept (hr.inv.not_retrieved this)).1]
    rfl

/-- Five tickets are sent at once; the rest of the history does not matter. -/
example : due .start [([4, 0, 0, 1, 1, 4, 0, 0, 1, 2], 22), ([4, 0, 0, 1, 3, 4, 0, 0], 22),
      ([1, 4, 4, 0, 0, 1, 5, 4, 0, 0, 1, 6], 22), ([1], 23)] =
    some [[4, 0, 0, 1, 1], [4, 0, 0, 1, 2], [4, 0, 0, 1, 3], [4, 0, 0, 1, 4], [4, 0, 0, 1, 5]] := by
  decide +kernel

/-- If the record completing the fifth ticket also begins a sixth, no ticket is ever sent,
not even when application data follows. -/
theorem C25_lost_when_fifth_straddled :
    ∃ c evs, Reach Lib.toy rightArgs c evs ∧
      (view (handshakes evs)).tickets.length = 6 ∧ (view (handshakes evs)).sane = true ∧
      heard evs = [([4, 0, 0, 1, 1, 4, 0, 0, 1, 2, 4, 0, 0, 1, 3, 4, 0, 0, 1, 4], 22),
        ([4, 0, 0, 1, 5, 4], 22), ([0, 0, 1, 6], 22), ([9], 23)] ∧ c.sent = [] :=
  ⟨_, _, ⟨right, recvAll (pos 0) [[4, 0, 0, 1, 1, 4, 0, 0, 1, 2, 4, 0, 0, 1, 3, 4, 0, 0, 1, 4, 22],
      [4, 0, 0, 1, 5, 4, 22], [0, 0, 1, 6, 22], [9, 23]], right_created, rfl⟩,
    by decide +kernel, by decide +kernel, by decide +kernel, by decide +kernel⟩

/-- Tickets completed in a record that is refused because of a later message in it are not
sent with the application data that follows (which is accepted). -/
theorem C25_lost_in_refused_record :
    ∃ c e1 r, Reach Lib.toy rightArgs c [e1, .opened r] ∧
      heard [e1] = [([4, 0, 0, 1, 1, 9], 22)] ∧ r.code = .ok ∧ r.record = some ([9], 23) ∧
      c.sent = [] :=
  ⟨_, _, _, ⟨right, recvAll (pos 0) [[4, 0, 0, 1, 1, 9, 22], [9, 23]], right_created, rfl⟩,
    by decide +kernel, by decide +kernel, by decide +kernel, by decide +kernel⟩

/-! ## C26: a key update advances the receive key exactly once -/

/-- As long as messages are in order, no key update failed in the crypto library, and no
record ended inside a key update: the inbound key was advanced exactly once for each key
update message in the stream received so far.  (As this holds after every call, the advance
happens in the call that receives the message.)  Missing: key updates cut over records, see
below. -/
theorem C26_one_advance_per_update_partial (L : Lib) (a : CreateArgs) (c : Conn)
    (evs : List Event) (hr : Reach L a c evs) (ho : InOrder evs) (hf : NoFailedUpdate evs)
    (hw : UpdatesWhole (handshakes evs)) :
    (inTrace evs).count .rekey =
      ((hsSplit (stream evs)).1.filter fun m => m.head? == some updateType).length := by
  have := hr.rekeys ho hf hw
  rw [(view_stream _ ho).2.1] at this
  exact this

/-- Two key updates, the first in a record that also completes a ticket. -/
example : ∃ c evs, Reach Lib.toy rightArgs c evs ∧ InOrder evs ∧
    (inTrace evs).count .rekey = 2 ∧ stream evs = [4, 0, 0, 1, 7, 24, 0, 0, 1, 0, 24, 0, 0, 1, 1] ∧
    heard evs = [([4, 0, 0], 22), ([1, 7, 24, 0, 0, 1, 0], 22), ([24, 0, 0, 1, 1], 22), ([5], 23)] :=
  ⟨_, _, ⟨right, recvs [(pos 0, [4, 0, 0, 22]), (pos 1, [1, 7, 24, 0, 0, 1, 0, 22]),
      (upd (pos 0), [24, 0, 0, 1, 1, 22]), (upd (upd (pos 0)), [5, 23])], right_created, rfl⟩,
    by decide +kernel, by decide +kernel, by decide +kernel, by decide +kernel⟩

/-- A key update cut over two records advances the key twice: the second part is only read if
it was sealed after one advance, and then the key advances again. -/
theorem C26_split_update_advances_twice :
    ∃ c evs, Reach Lib.toy rightArgs c evs ∧ InOrder evs ∧ NoFailedUpdate evs ∧
      heard evs = [([24, 0], 22), ([0, 1, 0], 22)] ∧ (inTrace evs).count .rekey = 2 :=
  ⟨_, _, ⟨right, recvs [(pos 0, [24, 0, 22]), (upd (pos 0), [0, 1, 0, 22])], right_created, rfl⟩,
    by decide +kernel, by
      intro r hr
      simp only [List.mem_cons, Event.opened.injEq, List.not_mem_nil, or_false] at hr
      rcases hr with rfl | rfl
      · exact Or.inr rfl
      · exact Or.inr rfl, by decide +kernel, by decide +kernel⟩

/-! ## C22: fragmentation does not matter -/

/-- As long as messages are in order, the tickets, key updates and pending bytes seen in the
records are those of the byte stream, however it was cut into records. -/
theorem C22_view_of_stream (hs : List Bytes) (ho : (view hs).sane = true) :
    (view hs).tickets = Spec.tickets (hsSplit hs.flatten).1 ∧
    (view hs).updates =
      ((hsSplit hs.flatten).1.filter fun m => m.head? == some updateType).length ∧
    (view hs).rest = (hsSplit hs.flatten).2 := view_stream hs ho

/-- A stream of whole messages is cut into just these messages. -/
theorem C22_split_of_messages (ms : List (UInt8 × Bytes))
    (hl : ∀ m ∈ ms, m.2.length < 2 ^ 24) :
    hsSplit (ms.map fun m => Spec.hsMessage m.1 m.2).flatten =
      (ms.map fun m => Spec.hsMessage m.1 m.2, []) := by
  induction ms with
  | nil => exact Handler.hsSplit_nil
  | cons m ms ih =>
    have hm := hl m (by simp)
    simp only [List.map_cons, List.flatten_cons]
    rw [Handler.hsSplit_cons, ih (fun x hx => hl x (by simp [hx]))]
    obtain ⟨t, body⟩ := m
    simp only at hm
    simp only [Spec.hsMessage, List.length_cons, Handler.bodyLen, Spec.len24, UInt8.toNat_ofNat']
    omega

/-- Two connections that received the same handshake stream cut into records in different
ways (in order, no key update cut, no library failure) advanced their keys equally often; and
if application data followed and neither fifth ticket was straddled, they handed the same
tickets to their senders.  Partial because of the conditions on the cuts, which
`C26_split_update_advances_twice` and `C25_lost_when_fifth_straddled` show to be needed. -/
theorem C22_fragmentation_irrelevant_partial (L : Lib) (a1 a2 : CreateArgs) (c1 c2 : Conn)
    (evs1 evs2 : List Event) (d1 d2 : Bytes) (hs1 hs2 : List Bytes)
    (hr1 : Reach L a1 c1 evs1) (hr2 : Reach L a2 c2 evs2)
    (hh1 : heard evs1 = hs1.map (·, Spec.handshakeType) ++ [(d1, Spec.appDataType)])
    (hh2 : heard evs2 = hs2.map (·, Spec.handshakeType) ++ [(d2, Spec.appDataType)])
    (he : hs1.flatten = hs2.flatten) (ho1 : InOrder evs1) (ho2 : InOrder evs2)
    (hf1 : NoFailedUpdate evs1) (hf2 : NoFailedUpdate evs2) :
    (UpdatesWhole hs1 → UpdatesWhole hs2 →
      (inTrace evs1).count .rekey = (inTrace evs2).count .rekey) ∧
    (¬ FifthStraddled hs1 → ¬ FifthStraddled hs2 →
      c1.sent.map (·.tickets) = c2.sent.map (·.tickets)) := by
  have hH : ∀ (evs : List Event) (hs : List Bytes) (d : Bytes),
      heard evs = hs.map (·, Spec.handshakeType) ++ [(d, Spec.appDataType)] →
      handshakes evs = hs := by
    intro evs hs d h
    have h2 : hsOf (hs.map (·, Spec.handshakeType) ++ [(d, Spec.appDataType)]) =
        hsOf (hs.map (·, Spec.handshakeType)) := by
      simp [hsOf, Spec.appDataType, Spec.handshakeType]
    rw [handshakes_eq, h, h2, hsOf_map]
  have e1 := hH evs1 hs1 d1 hh1
  have e2 := hH evs2 hs2 d2 hh2
  unfold InOrder at ho1 ho2
  constructor
  · intro w1 w2
    rw [C26_one_advance_per_update_partial L a1 c1 evs1 hr1 ho1 hf1 (by rw [e1]; exact w1),
      C26_one_advance_per_update_partial L a2 c2 evs2 hr2 ho2 hf2 (by rw [e2]; exact w2)]
    unfold stream
    rw [e1, e2, he]
  · intro s1 s2
    rw [C25_tickets_sent_when_due_partial L a1 c1 evs1 hr1 ho1 hf1 (by rw [e1]; exact s1),
      C25_tickets_sent_when_due_partial L a2 c2 evs2 hr2 ho2 hf2 (by rw [e2]; exact s2)]
    rw [e1] at ho1
    rw [e2] at ho2
    rw [hh1, hh2, due_stream_data hs1 d1 ho1, due_stream_data hs2 d2 ho2, he]

/-- The same two messages in one record and byte by byte. -/
example :
    (∃ c evs, Reach Lib.toy rightArgs c evs ∧ InOrder evs ∧
      heard evs = [[4, 0, 0, 1, 7, 4, 0, 0, 1, 8]].map (·, Spec.handshakeType) ++ [([5], 23)] ∧
      c.sent.map (·.tickets) = [[[4, 0, 0, 1, 7], [4, 0, 0, 1, 8]]]) ∧
    (∃ c evs, Reach Lib.toy rightArgs c evs ∧ InOrder evs ∧
      heard evs = [[4], [], [0, 0, 1], [7], [4, 0, 0], [1, 8]].map (·, Spec.handshakeType) ++ [([6], 23)] ∧
      c.sent.map (·.tickets) = [[[4, 0, 0, 1, 7], [4, 0, 0, 1, 8]]]) :=
  ⟨⟨_, _, ⟨right, recvAll (pos 0) [[4, 0, 0, 1, 7, 4, 0, 0, 1, 8, 22], [5, 23]], right_created, rfl⟩,
      by decide +kernel, by decide +kernel, by decide +kernel⟩,
   ⟨_, _, ⟨right, recvAll (pos 0) [[4, 22], [22], [0, 0, 1, 22], [7, 22], [4, 0, 0, 22], [1, 8, 22], [6, 23]],
      right_created, rfl⟩, by decide +kernel, by decide +kernel, by decide +kernel⟩⟩

/-! ## C27: a key update must be the last message of its record -/

/-- Messages in order so far; the record brings some tickets (non-empty bodies), a key update
with a non-empty body, and at least one more byte: `Unprotect` fails and does not advance the
key.  Partial: not for a key update with an empty body, see below. -/
theorem C27_update_must_be_last_partial (L : Lib) (a : CreateArgs) (c c' : Conn)
    (evs : List Event) (f : Fault) (header : Iovec) (payload : List Iovec) (out : Iovec)
    (r : Result) (content tail ku : Bytes) (pre : List Bytes) (hr : Reach L a c evs)
    (ho : InOrder evs) (h : unprotect L f c header payload out = .ok (c', r))
    (hc : r.record = some (content, Spec.handshakeType))
    (hm : (view (handshakes evs)).rest ++ content = pre.flatten ++ ku ++ tail)
    (hpre : ∀ m ∈ pre, ∃ body, body ≠ [] ∧ body.length < 2 ^ 24 ∧
      m = Spec.hsMessage ticketType body)
    (hku : ∃ body, body ≠ [] ∧ body.length < 2 ^ 24 ∧ ku = Spec.hsMessage updateType body)
    (ht : tail ≠ []) : r.code ≠ .ok ∧ r.rekey = none := by
  have hmsg : ∀ t (body : Bytes), body.length < 2 ^ 24 →
      (Spec.hsMessage t body).length = 4 + Handler.bodyLen (Spec.hsMessage t body) := by
    intro t body hb
    simp only [Spec.hsMessage, List.length_cons, Handler.bodyLen, Spec.len24, UInt8.toNat_ofNat']
    omega
  have hv : verdict (hsSplit ((view (handshakes evs)).rest ++ content)).1
      (hsSplit ((view (handshakes evs)).rest ++ content)).2 = .refuse := by
    rw [hm]
    obtain ⟨kb, k1, k2, rfl⟩ := hku
    clear hm
    induction pre with
    | nil =>
      rw [List.flatten_nil, List.nil_append, Handler.hsSplit_cons (hmsg _ _ k2), verdict]
      rw [if_neg (by simp [Spec.hsMessage, ticketType, updateType]), if_pos (by simp [Spec.hsMessage]),
        if_neg (by simpa [Spec.hsMessage] using k1), if_neg]
      rintro ⟨e1, e2⟩
      apply ht
      have := Handler.hsSplit_flatten tail
      rw [e1, e2] at this
      simpa using this.symm
    | cons m pre ih =>
      obtain ⟨b, b1, b2, rfl⟩ := hpre m (by simp)
      rw [List.flatten_cons, List.append_assoc, List.append_assoc, Handler.hsSplit_cons (hmsg _ _ b2),
        verdict, if_pos (by simp [Spec.hsMessage]), if_neg (by simpa [Spec.hsMessage] using b1),
        ← List.append_assoc]
      exact ih (fun x hx => hpre x (by simp [hx]))
  obtain ⟨r', h1, h2, h3, _⟩ := refused_step hr.inv ho (step_of_unprotect h) hc hv
  cases h1
  exact ⟨h2, h3⟩

/-- A ticket, a key update and one more byte. -/
example : ∃ c r, Reach Lib.toy rightArgs c [.opened r] ∧
    r.record = some ([4, 0, 0, 1, 7, 24, 0, 0, 1, 0, 4], 22) ∧ r.code = .internalError ∧
    r.rekey = none :=
  ⟨_, _, ⟨right, recvAll (pos 0) [[4, 0, 0, 1, 7, 24, 0, 0, 1, 0, 4, 22]], right_created, rfl⟩,
    by decide +kernel, by decide +kernel, by decide +kernel⟩

/-- A key update with an empty body may be followed by (up to three) more bytes: the record
is accepted and the key advances. -/
theorem C27_empty_update_need_not_be_last :
    ∃ c r, Reach Lib.toy rightArgs c [.opened r] ∧
      r.record = some (Spec.hsMessage updateType [] ++ [4], 22) ∧ r.code = .ok ∧
      r.rekey = some .ok :=
  ⟨_, _, ⟨right, recvAll (pos 0) [[24, 0, 0, 0, 4, 22]], right_created, rfl⟩,
    by decide +kernel, by decide +kernel, by decide +kernel⟩

/-! ## C28: unexpected handshake messages are refused for good -/

/-- Messages in order so far; the first message of the record that is not a ticket (even if
it is only begun) is of a type other than NewSessionTicket and KeyUpdate: `Unprotect` fails
without advancing the key, and so does every later one that receives handshake bytes.
Missing: the request byte of a key update, see below. -/
theorem C28_unexpected_type_refused_partial (L : Lib) (a : CreateArgs) (c c' : Conn)
    (evs : List Event) (f : Fault) (header : Iovec) (payload : List Iovec) (out : Iovec)
    (r : Result) (content : Bytes) (hr : Reach L a c evs)
    (ho : InOrder evs) (h : unprotect L f c header payload out = .ok (c', r))
    (hc : r.record = some (content, Spec.handshakeType))
    (hu : Unexpected (hsSplit ((view (handshakes evs)).rest ++ content)).1
      (hsSplit ((view (handshakes evs)).rest ++ content)).2) :
    r.code ≠ .ok ∧ r.rekey = none ∧
    ∀ ops c'' evs', run L c' ops = .ok (c'', evs') → ∀ r' bytes, .opened r' ∈ evs' →
      r'.record = some (bytes, Spec.handshakeType) → bytes ≠ [] →
      r'.code ≠ .ok ∧ r'.rekey = none := by
  obtain ⟨r1, h1, h2, h3, h4⟩ := refused_step hr.inv ho (step_of_unprotect h) hc
    (Handler.verdict_of_unexpected hu)
  cases h1
  refine ⟨h2, h3, ?_⟩
  have ha := h4 hu
  clear h h4
  intro ops
  induction ops generalizing c' with
  | nil =>
    intro c'' evs' hrun r' bytes hmem
    cases hrun
    cases hmem
  | cons op ops ih =>
    intro c'' evs' hrun r' bytes hmem hrec hne
    obtain ⟨d, ev, es, g1, g2, g3⟩ := run_cons hrun
    subst g3
    obtain ⟨k1, k2⟩ := alien_step ha g1
    rcases List.mem_cons.1 hmem with rfl | hmem
    · obtain ⟨r2, e1, e2⟩ := k2 bytes hrec hne
      cases e1
      exact e2
    · exact ih d k1 c'' es g2 r' bytes hmem hrec hne

/-- A certificate request (type 13) after a ticket, then a ticket. -/
example : ∃ c r r', Reach Lib.toy rightArgs c [.opened r, .opened r'] ∧
    r.record = some ([4, 0, 0, 1, 7, 13, 0, 0], 22) ∧ r.code = .internalError ∧
    r'.record = some ([4], 22) ∧ r'.code = .internalError :=
  ⟨_, _, _, ⟨right, recvAll (pos 0) [[4, 0, 0, 1, 7, 13, 0, 0, 22], [4, 22]], right_created, rfl⟩,
    by decide +kernel, by decide +kernel, by decide +kernel, by decide +kernel⟩

/-- The request byte of a key update is not checked. -/
theorem C28_any_request_byte_accepted :
    ∃ c r, Reach Lib.toy rightArgs c [.opened r] ∧
      r.record = some (Spec.hsMessage updateType [77], 22) ∧ r.code = .ok ∧
      r.rekey = some .ok :=
  ⟨_, _, ⟨right, recvAll (pos 0) [[24, 0, 0, 1, 77, 22]], right_created, rfl⟩,
    by decide +kernel, by decide +kernel, by decide +kernel⟩

/-- Nor is its length. -/
theorem C28_any_update_length_accepted :
    ∃ c r, Reach Lib.toy rightArgs c [.opened r] ∧
      r.record = some (Spec.hsMessage updateType [0, 1, 2], 22) ∧ r.code = .ok ∧
      r.rekey = some .ok :=
  ⟨_, _, ⟨right, recvAll (pos 0) [[24, 0, 0, 3, 0, 1, 2, 22]], right_created, rfl⟩,
    by decide +kernel, by decide +kernel, by decide +kernel⟩

/-- After an unexpected type an empty handshake record is still accepted. -/
theorem C28_empty_record_accepted_after_unexpected :
    ∃ c e r', Reach Lib.toy rightArgs c [e, .opened r'] ∧
      heard [e] = [([13, 0, 0], 22)] ∧ r'.record = some ([], 22) ∧ r'.code = .ok :=
  ⟨_, _, _, ⟨right, recvAll (pos 0) [[13, 0, 0, 22], [22]], right_created, rfl⟩,
    by decide +kernel, by decide +kernel, by decide +kernel⟩

/-! ## C29: handshake bytes cannot trigger undefined behaviour -/

/-- `Unprotect` on well-formed buffers has no undefined behaviour, whatever the peer sent,
if the messages so far were in order and the record (if it is a handshake record) contains no
message with an empty body before the first one that is refused.  Missing: empty bodies, and
what follows a refused message; see below. -/
theorem C29_no_ub_in_order_partial (L : Lib) (a : CreateArgs) (s : Spec.Suite) (c : Conn)
    (evs : List Event) (f : Fault) (header : Iovec) (payload : List Iovec) (out : Iovec)
    (hs : Spec.suite a.ciphersuite = some s) (hr : Reach L a c evs) (hp : AllWF payload)
    (hw : out.WF) (ho : InOrder evs)
    (hc : ∀ inner content, (inPos L a s evs).open L header.bytes (flat payload) = some inner →
      Spec.unpad inner = some (content, Spec.handshakeType) →
      verdict (hsSplit ((view (handshakes evs)).rest ++ content)).1
        (hsSplit ((view (handshakes evs)).rest ++ content)).2 ≠ .emptyBody) :
    ∃ c' r, unprotect L f c header payload out = .ok (c', r) := by
  rcases unprotect_cases hr hs f header payload out hp hw with
    ⟨r', h1, _⟩ |
    ⟨hcn, hhd, hl1, hl2, hlt, hat, h1 | ⟨p', ob, ho1, ho2, ho3, ho4, ho5, h1⟩⟩
  · exact ⟨_, _, h1⟩
  · exact ⟨_, _, h1.1⟩
  · rw [h1]
    have hg : Good s ({ c with inC := bump c.inC } : Conn).inC :=
      HalfConn.bump_good (hr.good hs).1
    have hi : Inv a { c with inC := bump c.inC } (handshakes evs) :=
      Calm.inv (c := c) ⟨rfl, rfl, rfl, rfl, rfl, rfl, rfl, rfl⟩ hr.inv
    obtain ⟨⟨c', r⟩, hx⟩ := dispatch_total (L := L) (f := f.key)
      (call := some ⟨(inPos L a s evs).key L, (inPos L a s evs).nonce L, header.bytes, flat payload⟩)
      (p := p') (tail := ob.drop p'.length) hg hi
      (fun content hu => hi.process_total ho (hc p' content ho1 hu))
    exact ⟨c', r, hx⟩

/-- In any reachable state, in order or not, records that are not handshake records, and
empty handshake records, have no undefined behaviour. -/
theorem C29_no_ub_other_records (L : Lib) (a : CreateArgs) (s : Spec.Suite) (c : Conn)
    (evs : List Event) (f : Fault) (header : Iovec) (payload : List Iovec) (out : Iovec)
    (hs : Spec.suite a.ciphersuite = some s) (hr : Reach L a c evs) (hp : AllWF payload)
    (hw : out.WF)
    (hc : ∀ inner content, (inPos L a s evs).open L header.bytes (flat payload) = some inner →
      Spec.unpad inner = some (content, Spec.handshakeType) → content = []) :
    ∃ c' r, unprotect L f c header payload out = .ok (c', r) := by
  rcases unprotect_cases hr hs f header payload out hp hw with
    ⟨r', h1, _⟩ |
    ⟨hcn, hhd, hl1, hl2, hlt, hat, h1 | ⟨p', ob, ho1, ho2, ho3, ho4, ho5, h1⟩⟩
  · exact ⟨_, _, h1⟩
  · exact ⟨_, _, h1.1⟩
  · rw [h1]
    have hg : Good s ({ c with inC := bump c.inC } : Conn).inC :=
      HalfConn.bump_good (hr.good hs).1
    have hi : Inv a { c with inC := bump c.inC } (handshakes evs) :=
      Calm.inv (c := c) ⟨rfl, rfl, rfl, rfl, rfl, rfl, rfl, rfl⟩ hr.inv
    obtain ⟨⟨c', r⟩, hx⟩ := dispatch_total (L := L) (f := f.key)
      (call := some ⟨(inPos L a s evs).key L, (inPos L a s evs).nonce L, header.bytes, flat payload⟩)
      (p := p') (tail := ob.drop p'.length) hg hi
      (fun content hu => by rw [hc p' content ho1 hu]; exact ⟨_, process_nil _⟩)
    exact ⟨c', r, hx⟩

/-- A message with an empty body followed by four more bytes: shift by a negative amount. -/
theorem C29_empty_body_undefined :
    run Lib.toy right (recvAll (pos 0) [Spec.hsMessage ticketType [] ++ [4, 0, 0, 1] ++ [22]]) =
      .error .negativeShift := by decide +kernel

/-- Four handshake bytes after a key update that was refused because it was not last. -/
theorem C29_after_refused_update_undefined :
    (∃ c r, Reach Lib.toy rightArgs c [.opened r] ∧ r.code = .internalError ∧
      r.record = some ([24, 0, 0, 1, 0, 9], 22)) ∧
    run Lib.toy right (recvAll (pos 0) [[24, 0, 0, 1, 0, 9, 22], [4, 0, 0, 1, 22]]) =
      .error .negativeShift :=
  ⟨⟨_, _, ⟨right, recvAll (pos 0) [[24, 0, 0, 1, 0, 9, 22]], right_created, rfl⟩,
    by decide +kernel, by decide +kernel⟩, by decide +kernel⟩

/-- Four handshake bytes after the header of a message of an unexpected type that was refused. -/
theorem C29_after_unexpected_undefined :
    (∃ c r, Reach Lib.toy rightArgs c [.opened r] ∧ r.code = .internalError ∧
      r.record = some ([13, 0, 0, 0], 22)) ∧
    run Lib.toy right (recvAll (pos 0) [[13, 0, 0, 0, 22], [4, 0, 0, 1, 22]]) =
      .error .negativeShift :=
  ⟨⟨_, _, ⟨right, recvAll (pos 0) [[13, 0, 0, 0, 22]], right_created, rfl⟩,
    by decide +kernel, by decide +kernel⟩, by decide +kernel⟩

/-! ## C30: nothing else inside a fragmented handshake message -/

/-- Messages in order, one incomplete, and the last handshake record did not complete the
fifth ticket: if `Unprotect` succeeds, the record was a handshake record.  (In particular
application data fails; alerts are reported with their own codes.)  Missing: the exception
below. -/
theorem C30_only_handshake_continues_partial (L : Lib) (a : CreateArgs) (c c' : Conn)
    (evs : List Event) (f : Fault) (header : Iovec) (payload : List Iovec) (out : Iovec)
    (r : Result) (hr : Reach L a c evs) (hp : AllWF payload) (hw : out.WF) (ho : InOrder evs)
    (hq : (hsSplit (stream evs)).2 ≠ []) (hl : ¬ LastStraddles (handshakes evs))
    (h : unprotect L f c header payload out = .ok (c', r)) (hok : r.code = .ok) :
    ∃ content, r.record = some (content, Spec.handshakeType) := by
  rcases hr.noFail_or_dead with hf | hd
  · have he := (hr.tidy ho hf).exp hl
    rw [← (view_stream _ ho).2.2] at hq
    have he : c.expecting = true := by
      rw [he]
      simpa using hq
    rcases unprotect_shape h with ⟨_, _, g, _⟩ | ⟨i, call, p, tail, _, g⟩
    · exact absurd hok g
    · have hin := dispatch_inner g
      cases hu : Spec.unpad p with
      | none => rw [dispatch_none _ _ _ _ _ _ hu] at g; cases g; cases hok
      | some ct =>
        obtain ⟨content, t⟩ := ct
        by_cases h1 : t = Spec.alertType
        · subst h1
          rw [dispatch_alert _ _ _ _ _ _ hu] at g
          split at g
          · cases g; cases hok
          · split at g <;> (cases g; cases hok)
        by_cases h2 : t = Spec.handshakeType
        · subst h2
          exact ⟨content, by rw [Result.record, hin]; exact hu⟩
        by_cases h3 : t = Spec.appDataType
        · subst h3
          rw [dispatch_appData _ _ _ _ _ _ hu, if_pos (c := c.expecting = true) he] at g
          cases g; cases hok
        · rw [dispatch_other _ _ _ _ _ _ hu h1 h2 h3] at g; cases g; cases hok
  · exact absurd hok (dead_unprotect hr hd hp hw h)

/-- Application data inside a ticket is refused, the rest of the ticket accepted. -/
example : ∃ c e r1 r2, Reach Lib.toy rightArgs c [e, .opened r1, .opened r2] ∧
    heard [e] = [([4, 0], 22)] ∧ r1.record = some ([9], 23) ∧ r1.code = .invalidRecord ∧
    r2.record = some ([0, 1, 7], 22) ∧ r2.code = .ok :=
  ⟨_, _, _, _, ⟨right, recvAll (pos 0) [[4, 0, 22], [9, 23], [0, 1, 7, 22]], right_created, rfl⟩,
    by decide +kernel, by decide +kernel, by decide +kernel, by decide +kernel, by decide +kernel⟩

/-- If the record completing the fifth ticket also begins another message, application data
is accepted inside that message. -/
theorem C30_app_data_inside_message_after_fifth :
    ∃ c e r, Reach Lib.toy rightArgs c [e, .opened r] ∧ InOrder [e] ∧
      (hsSplit (stream [e])).2 = [24, 0] ∧ r.record = some ([9], 23) ∧ r.code = .ok :=
  ⟨_, _, _, ⟨right, recvs [(pos 0, [4, 0, 0, 1, 1, 4, 0, 0, 1, 2, 4, 0, 0, 1, 3, 4, 0, 0, 1, 4,
      4, 0, 0, 1, 5, 24, 0, 22]), (upd (pos 0), [9, 23])], right_created, rfl⟩,
    by decide +kernel, by decide +kernel, by decide +kernel, by decide +kernel⟩

/-- An alert inside a fragmented message is acted on. -/
theorem C30_alert_inside_message_reported :
    ∃ c e r, Reach Lib.toy rightArgs c [e, .opened r] ∧ InOrder [e] ∧
      (hsSplit (stream [e])).2 = [4, 0] ∧ r.record = some ([1, 0], 21) ∧
      r.code = .alertCloseNotify :=
  ⟨_, _, _, ⟨right, recvAll (pos 0) [[4, 0, 22], [1, 0, 21]], right_created, rfl⟩,
    by decide +kernel, by decide +kernel, by decide +kernel, by decide +kernel⟩

end S2A.Record
