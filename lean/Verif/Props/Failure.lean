import Verif.Lemmas.FrameOutcome
import Verif.Props.Orderly
import Verif.Props.Limits
/-
What exactly a failing call costs: the plaintext that stays in the buffer (C13), the data that is
lost (C64), what the caller is told (C70), and how many messages one key carries (C74).
-/
namespace S2A.Record
open HalfConn (exec_bind_eq_ok bump At)
open Demo

set_option maxRecDepth 100000

/-! ## C13: what a rejected record leaves in the buffer -/

/-- For every rejected record the output buffer is one of: untouched (no decryption was tried);
all zeros; zeros where the decryption wrote (the record held only padding); or it still holds the
decrypted record, and then the record was authentic and was a handshake record, or application
data in the middle of a handshake message. -/
theorem C13_every_rejection (L : Lib) (a : CreateArgs) (s : Spec.Suite) (c c' : Conn)
    (evs : List Event) (f : Fault) (header : Iovec) (payload : List Iovec) (out : Iovec)
    (r : Result) (hs : Spec.suite a.ciphersuite = some s) (hr : Reach L a c evs)
    (hp : AllWF payload) (ho : out.WF)
    (h : unprotect L f c header payload out = .ok (c', r)) (hno : r.code ≠ .ok) :
    (r.out = out ∧ r.call = none) ∨ r.out = out.setBytes (zeros out.len) ∨
    ∃ inner, (inPos L a s evs).open L header.bytes (flat payload) = some inner ∧
      ((Spec.unpad inner = none ∧
          r.out = out.setBytes (zeros inner.length ++ out.bytes.drop inner.length)) ∨
        ∃ content t, Spec.unpad inner = some (content, t) ∧
          ((t = Spec.handshakeType ∧ r.code = .internalError) ∨
            (t = Spec.appDataType ∧ r.code = .invalidRecord ∧ c.expecting = true)) ∧
          r.out = out.setBytes (inner ++ out.bytes.drop inner.length)) := by
  rcases unprotect_cases hr hs f header payload out hp ho with
    ⟨r', h1, h2, h3, h4, h5, h6, _⟩ |
    ⟨hcn, hhd, hl1, hl2, hlt, hat, h1 | ⟨p, ob, ho1, ho2, ho3, ho4, ho5, h1⟩⟩
  · rw [h] at h1
    cases h1
    rcases h6 with h6 | h6
    · exact Or.inl ⟨h6, h4⟩
    · exact Or.inr (Or.inl h6)
  · rw [h] at h1
    cases h1.1
    exact Or.inr (Or.inl rfl)
  · rw [h] at h1
    subst ho2
    have hlen : (p ++ ob.drop p.length).length = ob.length := by simp; omega
    rcases unpad_cases p with ⟨hu, hz⟩ | ⟨content, t, k, ht, hpe, hu⟩
    · rw [dispatch_none _ _ _ _ _ _ hu] at h1
      cases h1
      exact Or.inr (Or.inr ⟨p, ho1, Or.inl ⟨hu, by
        simp only [Iovec.setBytes, Iovec.bytes, zeros, ← hz]⟩⟩)
    by_cases t1 : t = Spec.alertType
    · rw [t1] at hu
      rw [dispatch_alert _ _ _ _ _ _ hu, hlen] at h1
      refine Or.inr (Or.inl ?_)
      split at h1
      · cases h1; rfl
      · split at h1 <;> (cases h1; rfl)
    by_cases t2 : t = Spec.handshakeType
    · rw [t2] at hu
      rw [dispatch_handshake _ _ _ _ _ _ hu] at h1
      symm at h1
      simp only [exec_bind_eq_ok] at h1
      obtain ⟨x, _, y, _, h2⟩ := h1
      cases h2
      refine Or.inr (Or.inr ⟨p, ho1, Or.inr ⟨content, _, hu, Or.inl ⟨rfl, ?_⟩, rfl⟩⟩)
      simp only at hno ⊢
      split at hno
      · exact absurd rfl hno
      · next hst => rw [if_neg hst]
    by_cases t3 : t = Spec.appDataType
    · rw [t3] at hu
      rw [dispatch_appData _ _ _ _ _ _ hu] at h1
      symm at h1
      split at h1
      · next he =>
        cases h1
        exact Or.inr (Or.inr ⟨p, ho1, Or.inr ⟨content, _, hu, Or.inr ⟨rfl, rfl, he⟩, rfl⟩⟩)
      · split at h1
        · simp only [exec_bind_eq_ok] at h1
          obtain ⟨x, _, h2⟩ := h1
          cases h2
          exact absurd rfl hno
        · cases h1; exact absurd rfl hno
    · rw [dispatch_other _ _ _ _ _ _ hu t1 t2 t3, hlen] at h1
      cases h1
      exact Or.inr (Or.inl rfl)

/-- Conversely the plaintext of every authentic handshake or application-data record that the
decryption could write stays in the buffer, rejected or not. -/
theorem C13_plaintext_stays (L : Lib) (a : CreateArgs) (s : Spec.Suite) (c c' : Conn)
    (evs : List Event) (f : Fault) (header : Iovec) (payload : List Iovec) (out : Iovec)
    (r : Result) (hs : Spec.suite a.ciphersuite = some s) (hr : Reach L a c evs)
    (hp : AllWF payload) (ho : out.WF) (hf : f.evp = .none)
    (hroom : (flat payload).length - 16 ≤ out.len)
    (h : unprotect L f c header payload out = .ok (c', r)) (hcall : r.call ≠ none)
    (inner content : Bytes) (t : UInt8)
    (hopen : (inPos L a s evs).open L header.bytes (flat payload) = some inner)
    (hu : Spec.unpad inner = some (content, t))
    (ht : t = Spec.handshakeType ∨ t = Spec.appDataType) :
    r.out = out.setBytes (inner ++ out.bytes.drop inner.length) := by
  rcases unprotect_cases hr hs f header payload out hp ho with
    ⟨r', h1, h2, h3, h4, h5, h6, _⟩ |
    ⟨hcn, hhd, hl1, hl2, hlt, hat, h1 | ⟨p, ob, ho1, ho2, ho3, ho4, ho5, h1⟩⟩
  · rw [h] at h1
    cases h1
    exact absurd h4 hcall
  · have := h1.2 hf hroom
    rw [hopen] at this
    cases this
  · rw [h] at h1
    subst ho2
    rw [hopen] at ho1
    cases ho1
    rcases ht with rfl | rfl
    · rw [dispatch_handshake _ _ _ _ _ _ hu] at h1
      symm at h1
      simp only [exec_bind_eq_ok] at h1
      obtain ⟨x, _, y, _, h2⟩ := h1
      cases h2
      rfl
    · rw [dispatch_appData _ _ _ _ _ _ hu] at h1
      symm at h1
      split at h1
      · cases h1; rfl
      · split at h1
        · simp only [exec_bind_eq_ok] at h1
          obtain ⟨x, _, h2⟩ := h1
          cases h2
          rfl
        · cases h1; rfl

/-- A rejected handshake record whose plaintext stays in the buffer. -/
example : ∃ c' r, step Lib.toy right (recv (pos 0) [9, 0, 0, 1, 9, 22]) = .ok (c', .opened r) ∧
    r.code = .internalError ∧ r.call ≠ none ∧ r.out = .buf [9, 0, 0, 1, 9, 22] ∧
    Spec.unpad [9, 0, 0, 1, 9, 22] = some ([9, 0, 0, 1, 9], Spec.handshakeType) :=
  ⟨_, _, rfl, by decide +kernel, by decide +kernel, by decide +kernel, by decide +kernel⟩

end S2A.Record

namespace S2A.Frame
open HalfConn (exec_bind_eq_ok)
open Spec (AllocOk deliveredData)
open Record (outPos)
open Demo

set_option maxRecDepth 100000

/-! ## C64: what a call delivers and what it loses -/

/-- Every allocating `Unprotect` call gives some records to the connection, in order, and ends in
one of three ways: all were accepted, the status is OK and exactly their data is returned; all
were accepted but what follows them is not a complete record, the status is FAILED_PRECONDITION
and all their data is lost; or all but the last were accepted, the status is that of the last
record and all the data of the earlier ones is lost. -/
theorem C64_every_call (L : Lib) (A : Allocator) (f : Nat → Record.Fault) (s s' : State)
    (vs : List Iovec) (res : Result) (h : unprotect L A f s vs = .ok (s', res)) :
    ∃ rs : List Record.Result, s'.evs = s.evs ++ rs.map .opened ∧
      ((res.status = .ok ∧ (∀ r ∈ rs, r.code = .ok) ∧
          res.bytes.map (·.2) = rs.map (fun r => r.out.bytes.take r.written)) ∨
        (res = ⟨.failedPrecondition, []⟩ ∧ ∀ r ∈ rs, r.code = .ok) ∨
        ∃ accepted last, rs = accepted ++ [last] ∧ (∀ r ∈ accepted, r.code = .ok) ∧
          last.code ≠ .ok ∧ res = ⟨convertCode last.code, []⟩) := by
  obtain ⟨rs, h1, h2⟩ := unprotect_ends h
  exact ⟨rs, h1, h2⟩

/-- So a failing call loses exactly the data of the records it accepted. -/
theorem C64_lost (L : Lib) (A : Allocator) (f : Nat → Record.Fault) (s s' : State)
    (vs : List Iovec) (res : Result) (h : unprotect L A f s vs = .ok (s', res)) :
    ∃ new, s'.evs = s.evs ++ new ∧
      (res.status = .ok → res.bytes.map (·.2) = deliveredData new) ∧
      (res.status ≠ .ok → res.bytes = []) := by
  obtain ⟨rs, h1, h2⟩ := unprotect_ends h
  refine ⟨_, h1, ?_⟩
  rcases h2 with ⟨a1, a2, a3⟩ | ⟨rfl, a2⟩ | ⟨b, l, rfl, a2, a3, rfl⟩
  · exact ⟨fun _ => by rw [a3, deliveredData_opened _ a2]; rfl, fun hk => absurd a1 hk⟩
  · exact ⟨fun hk => (by cases hk), fun _ => rfl⟩
  · exact ⟨fun hk => absurd (convertCode_ok.1 hk) a3, fun _ => rfl⟩

/-- The second way: a message followed by 30 zero bytes. -/
example : ∃ s1, unprotect Lib.toy alloc (fun _ => .none) rightS
      [.buf (record 0 [1, 2, 23] ++ zeros 30)] = .ok (s1, ⟨.failedPrecondition, []⟩) ∧
    deliveredData s1.evs = [[1, 2]] := ⟨_, rfl, by decide +kernel⟩

/-! ## C70: what the caller is told -/

/-- A failing `Unprotect` call has one of two statuses and returns nothing.  Close-notify, another
alert, a forged record, a too long record, a bad content type and a rejected handshake message
all have the status INTERNAL. -/
theorem C70_two_failures (L : Lib) (A : Allocator) (s s' : State)
    (f : Nat → Record.Fault) (vs : List Iovec) (res : Result)
    (h : unprotect L A f s vs = .ok (s', res)) (hno : res.status ≠ .ok) :
    res = ⟨.failedPrecondition, []⟩ ∨ res = ⟨.internal, []⟩ := by
  obtain ⟨ops, evs, g1, g2⟩ := (unprotect_steps h).calls
  obtain ⟨rs, h1, h2⟩ := unprotect_ends h
  rcases h2 with ⟨a1, _⟩ | ⟨a1, _⟩ | ⟨b, l, rfl, a2, a3, rfl⟩
  · exact absurd a1 hno
  · exact Or.inl a1
  · have hm : .opened l ∈ evs := by
      rw [g2] at h1
      rw [List.append_cancel_left h1]
      simp
    have := Record.run_codes g1 hm
    simp only [List.mem_cons, List.not_mem_nil] at this
    rcases this with e | e | e | e | e | e | e | e
    · exact absurd e a3
    all_goals (first | cases e | (rw [e]; simp [convertCode]))

/-- The last record a failing call gave to the connection decides the status: it is INTERNAL for
every reason but a malformed record.  So a close-notify cannot be told from a forgery. -/
theorem C70_close_looks_like_forgery (L : Lib) (A : Allocator) (s s' t t' : State)
    (f g : Nat → Record.Fault) (vs ws : List Iovec) (res rest : Result)
    (h : unprotect L A f s vs = .ok (s', res)) (k : unprotect L A g t ws = .ok (t', rest))
    (r r' : Record.Result) (hr : s'.evs.getLast? = some (.opened r)) (hn : s'.evs ≠ s.evs)
    (hr' : t'.evs.getLast? = some (.opened r')) (hn' : t'.evs ≠ t.evs)
    (hclose : r.code = .alertCloseNotify)
    (hforged : r'.code = .internalError ∨ r'.code = .invalidRecord ∨ r'.code = .alertOther ∨
      r'.code = .alertRecordOverflow) :
    res = rest := by
  have key : ∀ {u u' : State} {f : Nat → Record.Fault} {vs : List Iovec} {res : Result}
      {r : Record.Result}, unprotect L A f u vs = .ok (u', res) →
      u'.evs.getLast? = some (.opened r) → u'.evs ≠ u.evs → r.code ≠ .ok →
      res = ⟨convertCode r.code, []⟩ := by
    intro u u' f vs res r h hr hn hc
    obtain ⟨rs, h1, h2⟩ := unprotect_ends h
    have hne : rs ≠ [] := by
      rintro rfl
      exact hn (by rw [h1]; simp)
    have hlast : ∃ b, rs = b ++ [r] := by
      refine ⟨rs.dropLast, ?_⟩
      have e := List.dropLast_concat_getLast hne
      rw [h1, ← e] at hr
      simp at hr
      rw [← hr]
      exact e.symm
    obtain ⟨b, rfl⟩ := hlast
    rcases h2 with ⟨_, a2, _⟩ | ⟨_, a2⟩ | ⟨b', l, e, _, _, rfl⟩
    · exact absurd (a2 r (by simp)) hc
    · exact absurd (a2 r (by simp)) hc
    · have := List.append_inj_right' e rfl
      cases this
      rfl
  rw [key h hr hn (by rw [hclose]; simp), hclose,
    key k hr' hn' (by rcases hforged with e | e | e | e <;> rw [e] <;> simp)]
  rcases hforged with e | e | e | e <;> rw [e] <;> rfl

/-- A close-notify and a forged record. -/
example : ∃ s' t' res rest r r',
    unprotect Lib.toy alloc (fun _ => .none) rightS [.buf (record 0 [1, 0, 21])] = .ok (s', res) ∧
    unprotect Lib.toy alloc (fun _ => .none) rightS [.buf (record 1 [1, 23])] = .ok (t', rest) ∧
    s'.evs.getLast? = some (.opened r) ∧ r.code = .alertCloseNotify ∧
    t'.evs.getLast? = some (.opened r') ∧ r'.code = .internalError ∧ rightS.evs = [] :=
  ⟨_, _, _, _, _, _, rfl, rfl, rfl, by decide +kernel, rfl, by decide +kernel, rfl⟩

/-! ## C74: any number of messages under one key -/

/-- From every reachable state that can still send: any list of messages that together need no
more records than there are sequence numbers left is sent, all with status OK.  No number of
records in between makes the protector refuse. -/
theorem C74_any_number (L : Lib) (A : Allocator) (hA : AllocOk A) (o : Options)
    (su : Spec.Suite) (hsu : Spec.suite o.args.ciphersuite = some su) (s : State)
    (hr : Reach L A o s) (hlive : s.conn.outC.alwaysFail = false) (msgs : List (List Iovec))
    (hw : ∀ vs ∈ msgs, AllWF vs)
    (hseq : (outPos L o.args su s.evs).seq +
      (msgs.map fun vs => Spec.recordCount (flat vs).length).sum ≤ 2 ^ 64) :
    ∃ s' evs, run L A s (msgs.map (.protect (fun _ => .none))) = .ok (s', evs) ∧
      evs.length = msgs.length ∧ ∀ e ∈ evs, ∃ id w, e = .result ⟨.ok, [(id, w)]⟩ := by
  have hc := hr.conn.1
  have hat : HalfConn.At L s.conn.outC (outPos L o.args su s.evs) := by
    rcases hc.outAt hsu with h | h
    · rw [hlive] at h; cases h
    · exact h
  clear hlive hr
  generalize outPos L o.args su s.evs = d at hat hseq
  induction msgs generalizing s d with
  | nil => exact ⟨s, [], rfl, rfl, by simp⟩
  | cons vs msgs ih =>
    have hwv := hw vs (by simp)
    simp only [List.map_cons, List.sum_cons] at hseq
    obtain ⟨s1, ⟨st, bs⟩, e, _, _, hcase⟩ :=
      protect_call (A := A) (f := fun _ => .none) (vs := vs) hA hc
    have hc1 : Record.Reach L o.args s1.conn s1.evs := by
      obtain ⟨ops, evs, g1, g2⟩ := (protect_steps e).calls
      rw [g2]; exact hc.run g1
    rcases hcase with ⟨h1, _, b, hb, _, hall⟩ | ⟨_, _, _, h4⟩
    · cases h1
      cases hb
      obtain ⟨q1, q2, _⟩ := hall d hat
      rw [hwv.totalLen_eq] at q1
      obtain ⟨s2, evs, r1, r2, r3⟩ := ih s1 (fun v hv => hw v (by simp [hv])) hc1 _ q1 (by
        simp only [Spec.Dir.skip]; omega)
      refine ⟨s2, .result ⟨.ok, [(.heap s.next, b)]⟩ :: evs, ?_, by simp [r2], ?_⟩
      · simp only [List.map_cons, run, step, e, exec_bind_ok, exec_pure]
        rw [r1]
        rfl
      · intro ev hev
        rcases List.mem_cons.1 hev with rfl | hev
        · exact ⟨_, _, rfl⟩
        · exact r3 ev hev
    · have := h4 d hat (fun _ => rfl) hwv
      rw [hwv.totalLen_eq] at this
      omega

/-- A fresh protector sends a million times the limit of RFC 8446 section 5.5, in messages of one
byte, without a refusal. -/
example : ∃ s' evs,
    run Lib.toy alloc leftS ((List.replicate (1000000 * gcmRecordLimit) [.buf [1]]).map
      (.protect (fun _ => .none))) = .ok (s', evs) ∧
    evs.length = 1000000 * gcmRecordLimit ∧ ∀ e ∈ evs, ∃ id w, e = .result ⟨.ok, [(id, w)]⟩ := by
  obtain ⟨s', evs, h1, h2, h3⟩ := C74_any_number Lib.toy alloc alloc_ok leftO _ rfl leftS left_reach
    rfl (List.replicate (1000000 * gcmRecordLimit) [.buf [1]])
    (fun vs hv => by rw [List.eq_of_mem_replicate hv]; exact wf1 _) (by
      rw [List.map_replicate, List.sum_replicate_nat]
      have e1 : Spec.recordCount (flat [.buf [1]]).length = 1 := by decide
      have e2 : (outPos Lib.toy leftO.args ⟨.aes128gcm, .sha256, 16⟩ leftS.evs).seq ≤ 100 := by
        decide
      rw [e1]
      exact Nat.le_trans (Nat.add_le_add_right e2 _) (by decide))
  exact ⟨s', evs, h1, by rw [h2, List.length_replicate], h3⟩

end S2A.Frame
