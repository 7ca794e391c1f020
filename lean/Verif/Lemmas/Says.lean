import Verif.Lemmas.ReferenceHist
import Verif.Lemmas.TextSays
import Verif.Lemmas.AeadStatus
import Verif.Spec.Says
/-
What is said in a call is what the reference machine says.
-/
namespace S2A.Aead
open HalfConn (exec_bind_eq_ok)

theorem setAadT_none {q : String} {vs : List Iovec} {k : Nat} {c : Ctx} (hi : IntLens vs)
    (hw : AllWF vs) : setAadT .none q k c vs = .ok (.ok { c with aad := c.aad ++ flat vs }) := by
  obtain ⟨r, h1, _, _, h2⟩ := setAad_spec .none vs k c hi
  rw [h2 (fun _ => rfl) hw] at h1
  rw [← setAadT_quiet .none q] at h1
  generalize setAadT .none q k c vs = y at h1
  cases y with
  | error u => cases h1
  | ok z =>
    cases z with
    | error e => cases h1
    | ok c' => injection h1 with h1; injection h1 with h1; rw [h1]

/-- The message of the loop: there is no room. -/
theorem decLoopT_none {L : Lib} {q : String} {vs : List Iovec}
    {k : Nat} {c : Ctx} {out : Bytes} {off rem total : Nat} {cur ob : Bytes} {e : StatusCode}
    {m : String} (hw : AllWF vs)
    (h : decLoopT L .none q k c out off rem total cur vs = .ok (ob, .error (e, m))) :
    e = .invalidArgument ∧ m = "|plaintext| is too small to hold the decrypted ciphertext." := by
  induction vs generalizing k c out off rem total cur with
  | nil => cases h
  | cons v vs ih =>
    have hw' : AllWF vs := fun x hx => hw x (by simp [hx])
    unfold decLoopT at h
    split at h
    · cases h
    split at h
    · exact ih hw' h
    next hl =>
    cases v with
    | null n => exact absurd (hw (.null n) (by simp)) (by simpa [Iovec.WF, Iovec.len] using hl)
    | buf d =>
      simp only at h
      generalize (if d.length > total - kTagSize then total - kTagSize else d.length) = btw at h
      split at h
      · cases h
        exact ⟨rfl, rfl⟩
      split at h
      · cases h
      rw [if_neg (by simp [EvpFault.none])] at h
      simp only [exec_bind_eq_ok] at h
      obtain ⟨_, _, _, _, _, _, h⟩ := h
      exact ih hw' h

/-- The messages of a refused record. -/
theorem decryptT_none {L : Lib} {q : String} {c : Crypter} {nonce : Bytes} {aad ct : List Iovec}
    {out : Iovec} {r : Result} {m : String} (ha : IntLens aad) (hc : IntLens ct)
    (hwa : AllWF aad) (hw : AllWF ct) (ho : out.WF) (hn : nonce.length = 12)
    (h16 : 16 ≤ (flat ct).length) (h : c.decryptT L .none q nonce aad ct out = .ok (r, m)) :
    (out.len + 16 < (flat ct).length → m =
      if L.boring && decide (c.alg = .chachaPoly) then
        "|plaintext| is too small to hold the resulting plaintext."
      else "|plaintext| is too small to hold the decrypted ciphertext.") ∧
    ((flat ct).length ≤ out.len + 16 → r.status ≠ .ok → m =
      if L.boring && decide (c.alg = .chachaPoly) then "open operation failed. " ++ q
      else "Checking tag failed: " ++ q) := by
  have hol : out.bytes.length = out.len := ho.len_eq.symm
  have hk16 : kTagSize = 16 := rfl
  have hst : c.decrypt L .none nonce aad ct out = .ok r := by
    rw [← decryptT_mute L .none q, h]; rfl
  obtain ⟨e1, e2⟩ := decrypt_err L c nonce aad ct out r ha hc hwa hw ho hst
  unfold Crypter.decryptT at h
  by_cases hb : (L.boring && decide (c.alg = .chachaPoly)) = true
  · rw [if_pos hb] at h
    rw [if_pos hb, if_pos hb]
    unfold boringDecryptT at h
    rw [if_neg (by simpa using ho)] at h
    simp only [hw.totalLen_eq] at h
    rw [if_neg (by simpa using hn), if_neg (by simpa using hasBadNull_false.2 hw),
      if_neg (by omega)] at h
    split at h
    · cases h
      exact ⟨fun _ => rfl, fun h => by omega⟩
    rw [if_neg (by simpa using hasBadNull_false.2 hwa)] at h
    refine ⟨fun h => by omega, fun _ hne => ?_⟩
    split at h
    · cases h; rfl
    · simp only [exec_bind_eq_ok] at h
      obtain ⟨_, _, _, _, _, _, h⟩ := h
      cases h
      exact absurd rfl hne
  · rw [if_neg hb] at h
    rw [if_neg hb, if_neg hb]
    unfold evpDecryptT at h
    rw [if_neg (by simpa using ho)] at h
    simp only [hw.totalLen_eq] at h
    rw [if_neg (by omega), if_neg (by simpa using hn), if_neg (by simp [EvpFault.none]),
      setAadT_none ha hwa] at h
    simp only [exec_bind_ok, exec_bind_eq_ok] at h
    obtain ⟨y, hy, h⟩ := h
    split at h
    · next e m' =>
      obtain ⟨rfl, rfl⟩ := decLoopT_none hw hy
      cases h
      exact ⟨fun _ => rfl, fun hle _ => by
        rcases e2 ⟨hn, h16, by omega⟩ with h | h <;> cases h⟩
    · next ob' s =>
      obtain ⟨ob, r', g1, _, g2, _⟩ := decLoop_spec L .none ct 0
        ⟨c.alg, c.key, nonce, [] ++ flat aad, []⟩ [] out.bytes (flat ct).length [] hc hw (by simp)
        (fun _ => rfl) h16
      rw [← decLoopT_quiet L .none q] at g1
      simp only [List.nil_append, List.length_nil] at g1 hy
      rw [hy] at g1
      injection g1 with g1
      injection g1 with g1 g3
      obtain ⟨g4, _, _, _, g5, _⟩ := g2 s g3.symm
      simp only [List.nil_append, List.length_take] at g4
      rw [if_neg (by omega)] at h
      simp only [exec_bind_eq_ok] at h
      obtain ⟨_, _, tag, _, h⟩ := h
      refine ⟨fun h => by omega, fun _ hne => ?_⟩
      split at h
      · cases h
      split at h
      · next hx => cases hx
      split at h
      · cases h; rfl
      simp only [exec_bind_eq_ok] at h
      obtain ⟨_, _, h⟩ := h
      cases h
      exact absurd rfl hne

end S2A.Aead

namespace S2A.Spec

theorem wait_refused {k : Kind} {n : Nat} {more : Bytes} {s s' : Said} {e : Ear}
    (h : Ear.wait k n more s = some (e, s')) (ha : s.accepted = true)
    (hr : s'.accepted = false) : ∃ n, e = .stale .other n := by
  unfold Ear.wait at h
  split at h
  · cases h; rw [ha] at hr; cases hr
  split at h
  · cases k with
    | ticket => cases h; rw [ha] at hr; cases hr
    | update => cases h; rw [ha] at hr; cases hr
    | other => cases h; exact ⟨_, rfl⟩
  · cases h

theorem skip_cases (p r : Bytes) :
    Ear.skip p r = .stale .other 0 ∨ ∃ g, Ear.skip p r = .foreign g := by
  unfold Ear.skip
  simp only
  split
  · exact Or.inl rfl
  · exact Or.inr ⟨_, rfl⟩

/-- After a refusal the connection is left with a message that is not put away or is foreign. -/
theorem read_refused {ms : List Bytes} {q : Bytes} {s s' : Said} {e : Ear}
    (h : Ear.read ms q s = some (e, s')) (ha : s.accepted = true)
    (hr : s'.accepted = false) : (∃ k n, e = .stale k n) ∨ ∃ g, e = .foreign g := by
  have sk : ∀ p r, (∃ k n, Ear.skip p r = .stale k n) ∨ ∃ g, Ear.skip p r = .foreign g := fun p r => by
    rcases skip_cases p r with h | h
    · exact Or.inl ⟨_, _, h⟩
    · exact Or.inr h
  induction ms generalizing s with
  | nil =>
    unfold Ear.read at h
    split at h
    · cases h; rw [ha] at hr; cases hr
    split at h
    · cases h; rw [ha] at hr; cases hr
    split at h
    · cases h; rw [ha] at hr; cases hr
    · cases h; exact sk _ _
  | cons m ms ih =>
    unfold Ear.read at h
    split at h
    · split at h
      · obtain ⟨n, h⟩ := wait_refused h ha hr
        exact Or.inl ⟨_, _, h⟩
      · exact ih h ha
    split at h
    · split at h
      · obtain ⟨n, h⟩ := wait_refused h ha hr
        exact Or.inl ⟨_, _, h⟩
      split at h
      · cases h; rw [ha] at hr; cases hr
      · cases h; exact Or.inl ⟨_, _, rfl⟩
    · cases h; exact sk _ _

theorem hear_refused {e e' : Ear} {record : Bytes} {s : Said} (h : e.hear record = some (e', s))
    (hr : s.accepted = false) : (∃ k n, e' = .stale k n) ∨ ∃ g, e' = .foreign g := by
  unfold Ear.hear at h
  split at h
  · cases h; cases hr
  cases e with
  | inside got => exact read_refused h rfl hr
  | foreign got =>
    cases h
    rcases skip_cases got record with h | h
    · exact Or.inl ⟨_, _, h⟩
    · exact Or.inr h
  | stale k n =>
    obtain ⟨n, h⟩ := wait_refused h rfl hr
    exact Or.inl ⟨_, _, h⟩

end S2A.Spec

namespace S2A.Record
open HalfConn (exec_bind_eq_ok At updateKey_spec)
open Handler (Hears Keeps TInv stored kindOf)
open Spec (Machine Ear Stage silence sentence)

/-- The message about handshake bytes that were refused. -/
theorem processMessage_says {h : Handler} {e : Ear} (k : Hears h e)
    (hr : (∃ k n, e = .stale k n) ∨ ∃ g, e = .foreign g) : processMessage h = e.complaint := by
  unfold processMessage
  rcases hr with ⟨kind, n, rfl⟩ | ⟨g, rfl⟩
  · obtain ⟨t, k1, _, rfl⟩ := k
    rw [k1.type]
    simp only [kindOf]
    by_cases h4 : t = Handler.kTicketType
    · subst h4; rfl
    · rw [if_neg h4]
      by_cases h24 : t = Handler.kKeyUpdateType
      · rw [if_pos h24, if_pos h24]; rfl
      · rw [if_neg h24, if_neg h24]; rfl
  · obtain ⟨k1, t, q, rfl, _, k3⟩ := k
    rw [k1.type]
    simp only
    rw [if_neg k3]
    rfl

theorem retrieveAndSendT_says {L : Lib} {c : Conn} {m : Machine} (a : Acts L c m)
    (hs : m.stage ≠ .settled) : ∃ c', retrieveAndSendT c = .ok (c', m.settleSays) := by
  obtain ⟨k1, k2⟩ := a.kept hs
  rcases a.tinv with ⟨x, _⟩ | ⟨_, ts, x1, x2, x3⟩
  · rw [k1] at x; cases x
  have hm : "Retrieving tickets failed: " ++ storedTicketsMessage c.handler =
      "Retrieving tickets failed: |GetStoredTickets| should not be called while waiting to read more ticket bytes." := by
    unfold storedTicketsMessage
    rw [if_neg (by simp [k1])]
    decide +kernel
  unfold retrieveAndSendT Machine.settleSays
  rw [getStored_eq a.ear k1 x1]
  simp only
  rw [hm]
  by_cases ht : m.ear.inTicket = true
  · rw [if_pos ht, if_pos ht]
    exact ⟨_, rfl⟩
  · rw [if_neg ht, if_neg ht]
    exact ⟨_, rfl⟩

theorem handleTicketsT_live {c : Conn} {r} (hp : c.phase ≠ .done) :
    handleTicketsT c r =
      if r.containsTicket then
        if 5 ≤ r.numFull then do
          let (c, log) ← retrieveAndSendT { c with phase := .receiving }
          .ok ({ c with expecting := false, phase := .done }, log)
        else .ok ({ c with phase := .receiving }, [])
      else .ok (c, []) := by
  unfold handleTicketsT
  cases hq : c.phase with
  | done => exact absurd hq hp
  | notReceived =>
    simp only
    cases r.containsTicket with
    | false => simp
    | true =>
      by_cases h5 : 5 ≤ r.numFull
      · simp [h5, Handler.kMaxTickets]
      · simp [h5, Handler.kMaxTickets]
  | receiving =>
    simp only
    cases r.containsTicket with
    | false => simp
    | true =>
      by_cases h5 : 5 ≤ r.numFull
      · simp [h5, Handler.kMaxTickets]
      · simp [h5, Handler.kMaxTickets]

theorem handleTicketsT_says {L : Lib} {c : Conn} {m : Machine} {ku tk : Bool} {kut ex}
    (a : Acts L c m) (hl : m.stage ≠ .settled → c.handler.numFull = m.kept.length) :
    ∃ c', handleTicketsT c ⟨ex, ku, kut, tk, c.handler.numFull⟩ = .ok (c',
      if tk then
        if m.stage = .settled then ["Received a session ticket from the peer. It is being ignored."]
        else if 5 ≤ m.kept.length then m.settleSays else []
      else []) := by
  by_cases hs : m.stage = .settled
  · have hp : c.phase = .done := by rw [a.stage]; exact phaseOf_done.2 hs
    unfold handleTicketsT
    rw [hp, if_pos hs]
    exact ⟨c, rfl⟩
  · have hp : c.phase ≠ .done := by rw [a.stage]; exact fun h => hs (phaseOf_done.1 h)
    rw [handleTicketsT_live hp, if_neg hs]
    simp only
    rw [hl hs]
    cases tk with
    | false => exact ⟨c, rfl⟩
    | true =>
      rw [if_pos rfl, if_pos rfl]
      have a' : Acts L { c with phase := .receiving } { m with stage := .collecting } :=
        ⟨a.out, a.inp, a.ear, a.tinv, fun _ => a.kept hs, rfl, a.waiting, a.closed, a.sent⟩
      by_cases h5 : 5 ≤ m.kept.length
      · rw [if_pos h5, if_pos h5]
        obtain ⟨c', e⟩ := retrieveAndSendT_says a' (by simp)
        rw [e]
        exact ⟨_, rfl⟩
      · rw [if_neg h5, if_neg h5]
        exact ⟨_, rfl⟩

theorem dispatchT_handshake {L : Lib} {f : KeyFault} {c : Conn} {call p tail content}
    (h : Spec.unpad p = some (content, Spec.handshakeType)) :
    dispatchT L f c call (p ++ tail) p.length = (do
      let (h, r) ← c.handler.process content
      let ((c, st, rekey), said) ← handleResultT L f (processMessage h) { c with handler := h } r
      if st ≠ .ok then
        .ok ((c, ⟨.internalError, 0, .buf (p ++ tail), call, rekey, some p⟩),
          ⟨said.log ++ ["Failed to process handshake message result: " ++ said.message],
            "Failed to process handshake message result: " ++ said.message⟩)
      else .ok ((c, ⟨.ok, 0, .buf (p ++ tail), call, rekey, some p⟩), ⟨said.log, ""⟩)) := by
  obtain ⟨_, hl, ht, _⟩ := unpad_length h
  have htk : (p ++ tail).take p.length = p := by simp
  unfold dispatchT
  rw [lastNonzero_unpad, h]
  simp only [htk]
  simp only [Option.map_some, exec_bind_ok, Spec.handshakeType, exec_pure]
  rw [if_neg (by decide), if_pos trivial, List.take_append_of_le_length (by omega), ht]

/-- What is said about a handshake record. -/
theorem hear_says {L : Lib} {c : Conn} {m : Machine} {call p tail content y said}
    (a : Acts L c m)
    (h : Spec.unpad p = some (content, Spec.handshakeType))
    (hd : dispatchT L .none c call (p ++ tail) p.length = .ok (y, said)) :
    said = m.hearSays content := by
  rw [dispatchT_handshake h] at hd
  have hold : Keeps c.handler.retrieved (stored c.handler) [] c.handler := by
    refine ⟨a.tinv, rfl, ?_⟩
    rcases a.tinv with ⟨x1, x2, x3⟩ | ⟨x1, ts, x2, x3, x4⟩
    · rw [x1]; simp [stored, x2]
    · rw [x1]
      simp only [Bool.false_eq_true, if_false, List.append_nil]
      rw [List.take_of_length_le]
      simpa [stored, x2] using x4
  have hf := a.ear.process hold content
  unfold Machine.hearSays
  cases he : m.ear.hear content with
  | none =>
    rw [he] at hf
    have hf : c.handler.process content = .error .negativeShift := hf
    rw [hf] at hd
    cases hd
  | some z =>
    obtain ⟨e, s⟩ := z
    rw [he] at hf
    obtain ⟨h', res, e1, e2, e3, e4⟩ := hf
    rw [e1] at hd
    simp only [exec_bind_ok] at hd
    have hkept : m.stage ≠ .settled → h'.retrieved = false ∧
        stored h' = (m.kept ++ s.tickets).take 5 := by
      intro hs
      obtain ⟨k1, k2⟩ := a.kept hs
      have := e3.stored
      rw [k1, k2] at this
      exact ⟨e3.retrieved.trans k1, by simpa using this⟩
    simp only
    by_cases hacc : s.accepted = true
    · rw [hacc] at e4
      obtain ⟨kut, rfl⟩ : ∃ kut, res = .ok ⟨e.busy, s.update, kut, s.ticket, h'.numFull⟩ := by
        simpa using e4
      rw [if_neg (by simp [hacc])]
      have fin : ∀ (j : HalfConn) (c' : Conn) (log : List String),
          Side L j (if s.update then m.inp.update L else m.inp) m.inDead →
          handleTicketsT { c with handler := h', expecting := e.busy, inC := j }
                ⟨e.busy, s.update, kut, s.ticket, h'.numFull⟩ = .ok (c', log) →
          (⟨log, ""⟩ : Said) = (if s.ticket then
            if m.stage = .settled then
              ⟨["Received a session ticket from the peer. It is being ignored."], ""⟩
            else if 5 ≤ (m.kept ++ s.tickets).length then
              ⟨Machine.settleSays { m with ear := e }, ""⟩
            else silence
          else silence) := by
        intro j c' log hj g
        have a' : Acts L { c with handler := h', expecting := e.busy, inC := j }
            { m with ear := e, kept := (m.kept ++ s.tickets).take 5, waiting := e.busy, inp := if s.update then m.inp.update L else m.inp } :=
          ⟨a.out, hj, e2, e3.tinv, hkept, a.stage, rfl, a.closed, a.sent⟩
        obtain ⟨c'', g1⟩ := handleTicketsT_says (ku := s.update) (tk := s.ticket) (kut := kut)
          (ex := e.busy) a' (by
            intro hs
            rw [← (hkept hs).2, Handler.stored_length e3.tinv])
        simp only at g1
        rw [g1] at g
        injection g with g
        injection g with _ g
        rw [← g]
        have h5 : 5 ≤ ((m.kept ++ s.tickets).take 5).length ↔ 5 ≤ (m.kept ++ s.tickets).length := by
          rw [List.length_take]; omega
        by_cases h1 : s.ticket = true
        · rw [if_pos h1, if_pos h1]
          by_cases h2 : m.stage = .settled
          · rw [if_pos h2, if_pos h2]
          rw [if_neg h2, if_neg h2]
          by_cases h3 : 5 ≤ (m.kept ++ s.tickets).length
          · rw [if_pos h3, if_pos (h5.2 h3)]
            rfl
          · rw [if_neg h3, if_neg (fun h => h3 (h5.1 h))]
            rfl
        · rw [if_neg h1, if_neg h1]
          rfl
      simp only [exec_bind_eq_ok] at hd
      obtain ⟨⟨⟨c', st, rk⟩, sd⟩, hr, hd⟩ := hd
      unfold handleResultT at hr
      simp only at hr
      have hst : st = .ok ∧ sd.message = "" → said = ⟨sd.log, ""⟩ := by
        rintro ⟨rfl, _⟩
        simp only [ne_eq, not_true_eq_false, if_false] at hd
        cases hd
        rfl
      cases hu : s.update with
      | false =>
        simp only [hu] at hr fin
        rw [if_neg (by simp)] at hr
        simp only [exec_bind_eq_ok] at hr
        obtain ⟨⟨c'', log⟩, g, hr⟩ := hr
        cases hr
        rw [hst ⟨rfl, rfl⟩]
        exact fin c.inC _ _ (by simpa using a.inp) g
      | true =>
        obtain ⟨hc', st', u1, u2, u3, u4, u5⟩ := updateKey_spec L .none m.inp.suite c.inC a.inp.good
        obtain rfl := u5 rfl
        obtain rfl := u3 rfl
        simp only [hu] at hr fin
        rw [if_pos trivial, u1] at hr
        simp only [exec_bind_ok, ne_eq, not_true_eq_false, if_false, exec_bind_eq_ok] at hr
        obtain ⟨⟨c'', log⟩, g, hr⟩ := hr
        cases hr
        rw [hst ⟨rfl, rfl⟩]
        exact fin _ _ _ (by simpa using a.inp.updated) g
    · have hacc : s.accepted = false := by simpa using hacc
      rw [hacc] at e4
      have e4 : res = .error .internal := by simpa using e4
      subst e4
      rw [if_pos (by simp [hacc])]
      have hm := processMessage_says e2 (Spec.hear_refused he hacc)
      unfold handleResultT at hd
      simp only [exec_bind_ok, ne_eq, reduceCtorEq, not_false_eq_true, if_true] at hd
      cases hd
      rw [hm]
      rfl

/-- What is said about a decrypted record. -/
theorem plaintext_says {L : Lib} {c : Conn} {m : Machine} {call p tail y said}
    (a : Acts L c m) (hd : dispatchT L .none c call (p ++ tail) p.length = .ok (y, said)) :
    said = m.plaintextSays p := by
  unfold Machine.plaintextSays
  cases hu : Spec.unpad p with
  | none =>
    unfold dispatchT at hd
    rw [lastNonzero_unpad, hu] at hd
    cases hd
    rfl
  | some z =>
    obtain ⟨content, t⟩ := z
    simp only
    by_cases h2 : t = Spec.handshakeType
    · subst h2
      rw [if_neg (by decide), if_pos rfl]
      exact hear_says a hu hd
    obtain ⟨_, hl, ht, _⟩ := unpad_length hu
    unfold dispatchT at hd
    rw [lastNonzero_unpad, hu] at hd
    simp only [Option.map_some, exec_bind_ok, exec_pure] at hd
    by_cases h1 : t = Spec.alertType
    · subst h1
      rw [if_pos rfl]
      rw [if_pos (show Spec.alertType = kAlert from rfl)] at hd
      by_cases h2 : content.length < 2
      · rw [if_pos h2] at hd ⊢
        cases hd
        rfl
      · rw [if_neg h2] at hd ⊢
        have hget : (p ++ tail)[1]? = content[1]? := by
          rw [List.getElem?_append_left (by omega)]
          conv => rhs; rw [← ht]
          rw [List.getElem?_take, if_pos (by omega)]
        obtain ⟨x, hx⟩ : ∃ x, content[1]? = some x := ⟨content[1], by simp⟩
        rw [hget, hx] at hd
        rw [hx]
        simp only [Option.some.injEq] at hd ⊢
        by_cases hz : x = 0
        · rw [if_pos hz]
          rw [if_pos (show x = kCloseNotify from hz)] at hd
          cases hd
          rfl
        · rw [if_neg hz]
          rw [if_neg (show ¬ x = kCloseNotify from hz)] at hd
          have hm : "Received alert of type " ++ toString Spec.alertType.toNat ++ "." =
              "Received alert of type 21." := by decide +kernel
          rw [hm] at hd
          cases hd
          rfl
    rw [if_neg h1, if_neg h2]
    rw [if_neg (show ¬ t = kAlert from h1), if_neg (show ¬ t = kHandshake from h2)] at hd
    by_cases h3 : t = Spec.appDataType
    · rw [if_pos h3]
      rw [if_pos (show t = kAppData from h3), a.waiting] at hd
      by_cases hw : m.waiting = true
      · rw [if_pos hw] at hd ⊢
        cases hd
        rfl
      · rw [if_neg hw] at hd ⊢
        by_cases hp : m.stage = .collecting
        · rw [if_pos (by rw [a.stage]; exact phaseOf_receiving.2 hp)] at hd
          rw [if_pos hp]
          obtain ⟨c', e⟩ := retrieveAndSendT_says a (by rw [hp]; simp)
          rw [e] at hd
          cases hd
          rfl
        · rw [if_neg (by rw [a.stage]; exact fun h => hp (phaseOf_receiving.1 h))] at hd
          rw [if_neg hp]
          cases hd
          rfl
    · rw [if_neg h3]
      rw [if_neg (show ¬ t = kAppData from h3)] at hd
      cases hd
      rfl

/-- What is said about a record. -/
theorem receive_says {L : Lib} {q : String} {c : Conn} {m : Machine} {header payload out y said}
    (a : Acts L c m) (hh : header.WF) (hp : AllWF payload) (ho : out.WF)
    (hd : unprotectT L .none q c header payload out = .ok (y, said)) :
    said = m.receiveSays L q header.bytes (flat payload) out.len := by
  unfold Machine.receiveSays
  have hmax : 22 + kMaxPlaintext = 16406 := rfl
  have hfl := hp.totalLen_eq
  unfold unprotectT at hd
  simp only [← wf_len hh, ← hfl, recordOverhead_eq] at hd ⊢
  by_cases h1 : c.closeNotify = true
  · rw [if_pos h1] at hd
    rw [if_pos (by rw [← a.closed]; exact h1)]
    cases hd
    rfl
  rw [if_neg h1] at hd
  rw [if_neg (by rw [← a.closed]; exact h1)]
  by_cases h2 : header.len + totalLen payload < 22
  · rw [if_pos h2] at hd ⊢
    cases hd
    rfl
  rw [if_neg h2] at hd ⊢
  by_cases h3 : header.len + totalLen payload > 22 + kMaxPlaintext
  · rw [if_pos h3] at hd
    rw [if_pos (by omega)]
    cases hd
    rfl
  rw [if_neg h3] at hd
  rw [if_neg (by omega)]
  have hv := validateHeader_iff header (totalLen payload) (by omega)
  have hhd : header = .buf (Spec.recordHeader (totalLen payload)) ↔
      header.bytes = Spec.recordHeader (totalLen payload) := by
    constructor
    · intro h; rw [h]; rfl
    · intro h
      cases header with
      | null n => simp [Iovec.bytes, Spec.recordHeader] at h
      | buf d => simp only [Iovec.bytes] at h; rw [h]
  by_cases h4 : validateHeader header (header.len + totalLen payload) = true
  case neg =>
    rw [if_pos (by simpa using h4)] at hd
    rw [if_pos (fun h => h4 (hv.2 (hhd.2 h)))]
    cases hd
    rfl
  rw [if_neg (by simpa using h4)] at hd
  have hhb := hv.1 h4
  rw [if_neg (not_not_intro (hhd.1 hhb))]
  have hl5 : header.len = 5 := by rw [hhb]; rfl
  by_cases hb : HalfConn.blocked c.inC = true
  · have hb' := a.inp.blocked.1 hb
    rw [if_pos (by rcases hb' with h | h; exact Or.inl h; exact Or.inr h.1)]
    unfold HalfConn.decryptT at hd
    rw [if_pos (show (c.inC.alwaysFail || c.inC.overflowed) = true from hb), exec_bind_ok] at hd
    simp only [ne_eq, reduceCtorEq, not_false_eq_true, if_true, zeroOut_wf ho, exec_bind_ok,
      exec_pure] at hd
    cases hd
    rfl
  obtain ⟨hlive, hat, hlt⟩ := a.inp.unblocked (by simpa using hb)
  rw [if_neg (by simp [hlive]; omega)]
  unfold HalfConn.decryptT at hd
  rw [if_neg (show ¬ (c.inC.alwaysFail || c.inC.overflowed) = true from hb),
    HalfConn.nonceMask_spec _ a.inp.good.nonce] at hd
  simp only [exec_bind_ok] at hd
  have hwa : AllWF [header] := by rw [hhb]; exact AllWF.cons trivial allWF_nil
  have hfa : flat [header] = Spec.recordHeader (totalLen payload) := by
    rw [hhb]; simp [Iovec.bytes]
  have hia : Aead.IntLens [header] := totalLen_intLens (by simp; omega)
  have hip : Aead.IntLens payload := totalLen_intLens (by omega)
  obtain ⟨st, w, ob', e1, e2, e3, e4, e5, e6⟩ := Aead.Crypter.decrypt_spec L .none c.inC.aead
    (Spec.recordNonce c.inC.nonce c.inC.seq.toNat) [header] payload out hia hip hp ho
  have hnl : (Spec.recordNonce c.inC.nonce c.inC.seq.toNat).length = 12 := by
    simp [Spec.recordNonce, a.inp.good.nonce]
  simp only [exec_bind_eq_ok] at hd
  obtain ⟨⟨_, msg⟩, ⟨⟨r, _⟩, g, g'⟩, hd⟩ := hd
  cases g'
  have hr : c.inC.aead.decrypt L .none (Spec.recordNonce c.inC.nonce c.inC.seq.toNat) [header]
      payload out = .ok r := by
    rw [← Aead.decryptT_mute L .none q]
    show mute _ = _
    rw [show (c.inC.aead.decryptT L .none q (Spec.recordNonce c.inC.nonce c.inC.seq.toNat) [header]
      payload out) = _ from g]
    rfl
  rw [e1] at hr
  cases hr
  obtain ⟨t1, t2⟩ := Aead.decryptT_none hia hip hwa hp ho hnl (by omega) g
  have hone : (L.boring && decide (c.inC.aead.alg = .chachaPoly)) = m.oneShot L := by
    rw [a.inp.good.alg]; rfl
  rw [hone, ← hfl] at t1 t2
  rw [hfa] at e4 e5
  have hop : Spec.aeadOpen L c.inC.aead.alg c.inC.aead.key
      (Spec.recordNonce c.inC.nonce c.inC.seq.toNat) (Spec.recordHeader (totalLen payload))
      (flat payload) = m.inp.open L header.bytes (flat payload) := by
    rw [hhd.1 hhb, hat.nonce hlt, hat.key, hat.good.alg]
    rfl
  by_cases hst : st = .ok
  · subst hst
    obtain ⟨g1, g2, p, g3, g4, g5, g6⟩ := e4 rfl
    obtain ⟨k1, k2⟩ := Aead.aeadOpen_length g3
    have hob : ∃ ob, out = .buf ob := by
      cases out with
      | null n => simp only [Iovec.WF] at ho; simp [Iovec.len] at g5; omega
      | buf ob => exact ⟨ob, rfl⟩
    obtain ⟨ob, rfl⟩ := hob
    rw [if_neg (by omega), ← hop, g3]
    simp only [ne_eq, not_true_eq_false, if_false, Iovec.setBytes, g6, g4, Iovec.bytes] at hd
    have a' : Acts L { c with inC := HalfConn.bump c.inC } { m with inp := m.inp.next } :=
      ⟨a.out, by rw [hlive]; exact .of (hat.bump hlt), a.ear, a.tinv, a.kept, a.stage, a.waiting,
        a.closed, a.sent⟩
    exact plaintext_says a' hd
  · rw [if_pos (show _ ≠ _ from hst)] at hd
    simp only [exec_bind_eq_ok] at hd
    obtain ⟨_, _, hd⟩ := hd
    cases hd
    by_cases hr : out.len + 16 < totalLen payload
    · rw [if_pos hr, t1 hr]
      rfl
    · rw [if_neg hr, ← hop, t2 (by omega) hst]
      cases ho' : Spec.aeadOpen L c.inC.aead.alg c.inC.aead.key
          (Spec.recordNonce c.inC.nonce c.inC.seq.toNat) (Spec.recordHeader (totalLen payload))
          (flat payload) with
      | none => rfl
      | some p => exact absurd (e5 rfl hnl hwa (by omega) ⟨p, ho'⟩) hst

/-- What is said when a record is made. -/
theorem send_says {L : Lib} {q : String} {c : Conn} {m : Machine} {rt pt record y said}
    (a : Acts L c m) (hp : AllWF pt) (ho : record.WF)
    (hd : protectT L .none q c rt pt record = .ok (y, said)) :
    said = m.sendSays rt (flat pt) record.len := by
  have hg := acts_send (rt := rt) a hp ho
  rw [← protectT_mute L .none q, hd] at hg
  unfold Machine.send at hg
  have g2 : ∀ z, (m.send L rt (flat pt) record.len) = z → y.2.code = z.2.1 := by
    intro z hz
    unfold Machine.send at hz
    rw [hz] at hg
    obtain ⟨c', r, g1, g2, _, _⟩ := hg
    cases g1
    exact g2
  replace g2 := g2 _ rfl
  have hfine := protectT_fine (errs := fun _ => True) (w := q) trivial hd
  have hmax : kMaxPlaintext = 16384 := rfl
  unfold Machine.sendSays
  unfold Machine.send at g2
  unfold protectT at hd
  rw [← hp.totalLen_eq] at g2 ⊢
  simp only at hd
  have hro := recordOverhead_eq c
  by_cases h1 : totalLen pt > kMaxPlaintext
  · rw [if_pos h1] at hd
    rw [if_pos (by omega)]
    cases hd
    rfl
  rw [if_neg h1] at hd
  rw [if_neg (by omega)]
  by_cases h2 : record.len < totalLen pt + c.recordOverhead
  · rw [if_pos h2] at hd
    rw [if_pos (by omega)]
    cases hd
    rfl
  rw [if_neg h2] at hd
  rw [if_neg (by omega)]
  rw [if_neg (by omega)] at g2
  cases record with
  | null n => cases hd
  | buf rb =>
    simp only [exec_bind_eq_ok] at hd
    obtain ⟨rb', _, hd⟩ := hd
    cases ht : Spec.contentType rt with
    | none =>
      cases rt <;> simp [Spec.contentType] at ht
      cases hd
      rfl
    | some t =>
      rw [ht] at g2
      simp only at g2 ⊢
      by_cases hb : m.outDead = true ∨ m.out.seq = 2 ^ 64
      · rw [if_pos hb]
        have hb' : HalfConn.blocked c.outC = true := by
          rw [a.out.blocked]
          cases hdd : m.outDead with
          | true => exact Or.inl rfl
          | false => exact Or.inr ⟨by simpa [hdd] using hb, rfl⟩
        have key : ∀ t, (convertRecordType rt = .ok t) → said =
          ⟨["Encryption failure: |S2AHalfConnection| is in unusable state."],
            "|S2AHalfConnection| is in unusable state."⟩ := by
          intro t htt
          rw [htt] at hd
          simp only [exec_bind_eq_ok] at hd
          obtain ⟨_, _, z, hz, hd⟩ := hd
          unfold HalfConn.encryptT at hz
          rw [if_pos (show (c.outC.alwaysFail || c.outC.overflowed) = true from hb')] at hz
          cases hz
          rw [if_pos (by simp)] at hd
          cases hd
          show (⟨["Encryption failure: " ++ "|S2AHalfConnection| is in unusable state."],
            "|S2AHalfConnection| is in unusable state."⟩ : Said) = _
          decide +kernel
        cases rt <;> simp [Spec.contentType] at ht
        all_goals exact key _ rfl
      · rw [if_neg hb] at g2 ⊢
        have hl := hfine.2 g2
        have hm := (hfine.1.success g2).1
        cases said
        simp only at hl hm
        rw [hl, hm]
        rfl

end S2A.Record
